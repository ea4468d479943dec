import Verif.TransProof2
/-!
# exp, logistic and tanh on 16-bit raw values, as functions on integers

As `TransProof` and `TransProof2`, for `FixedPoint<std::int16_t, ib>`.  The constants of
fixedpoint/fixedpoint.h are rounded to 16 bits; the division is checked for all 2^14 denominators.
-/
namespace Gemmlowp.Fx16
open Gemmlowp.Fx

/-- `SaturatingRoundingDoublingHighMul` on integers, except for the square of the least number. -/
def sm (a b : Int) : Int := (a * b + 16384) / 32768

/-- Clamp to int16. -/
def sat (x : Int) : Int := Spec.clampTo (-32768) 32767 x

abbrev In16 (x : Int) : Prop := InW 16 x

theorem in16_iff (x : Int) : In16 x ↔ -32768 ≤ x ∧ x < 32768 := by
  unfold In16 InW; norm_num

theorem in16 {x : Int} (h : -32768 ≤ x ∧ x < 32768) : In16 x := (in16_iff x).2 h

theorem toI {x : Int} (h : In16 x) : (BitVec.ofInt 16 x).toInt = x := toInt_ofIntW (by decide) h

theorem add_I {m : OvMode} {a b : Int} (ha : In16 a) (hb : In16 b) (h : In16 (a + b)) :
    add m (BitVec.ofInt 16 a) (BitVec.ofInt 16 b) = .ok (BitVec.ofInt 16 (a + b)) := by
  unfold add; rw [toI ha, toI hb, retW_ok h]

theorem sub_I {m : OvMode} {a b : Int} (ha : In16 a) (hb : In16 b) (h : In16 (a - b)) :
    sub m (BitVec.ofInt 16 a) (BitVec.ofInt 16 b) = .ok (BitVec.ofInt 16 (a - b)) := by
  unfold sub; rw [toI ha, toI hb, retW_ok h]

theorem neg_I {m : OvMode} {a : Int} (ha : In16 a) (h : In16 (-a)) :
    neg m (BitVec.ofInt 16 a) = .ok (BitVec.ofInt 16 (-a)) := by
  unfold neg; rw [toI ha, retW_ok h]

theorem eq_ofInt {b : BitVec 16} {x : Int} (h : b.toInt = x) : b = BitVec.ofInt 16 x := by
  rw [← h, BitVec.ofInt_toInt]

theorem srdhm_I {a b : Int} (ha : In16 a) (hb : In16 b) (h : ¬ (a = -32768 ∧ b = -32768)) :
    srdhm (BitVec.ofInt 16 a) (BitVec.ofInt 16 b) = BitVec.ofInt 16 (sm a b) := by
  apply eq_ofInt
  have h1 := (srdhm_spec (w := 16) (by decide) (BitVec.ofInt 16 a) (BitVec.ofInt 16 b)).2
  rw [toI ha, toI hb] at h1
  have h2 := h1 (by unfold minW; norm_num; intro e1 e2; exact h ⟨e1, e2⟩)
  rw [Spec.nearestUp_iff (two_pow_pos' _)] at h2
  rw [h2]
  unfold sm
  norm_num
  omega

theorem srmbp_neg_I {m : OvMode} {E : Nat} (hE : E + 1 ≤ 15) {x : Int} (hx : In16 x) :
    srmbp m (-((E + 1 : Nat) : Int)) (BitVec.ofInt 16 x) = .ok (BitVec.ofInt 16 (rd (2 ^ E) x)) := by
  obtain ⟨r, h1, h2⟩ := C31_multiplyByPOT_neg (w := 16) m (by decide) (E + 1) (by omega) (by omega)
    (by omega) (BitVec.ofInt 16 x)
  rw [h1]
  congr 1
  apply eq_ofInt
  rw [toI hx, two_pow_succ'] at h2
  exact h2.unique (rd_nearest (two_pow_pos' E))

theorem sat_eq {x : Int} (h : In16 x) : sat x = x := by
  rw [in16_iff] at h
  unfold sat Spec.clampTo
  rw [if_neg (by omega), if_neg (by omega)]

theorem srmbp_pos_I {m : OvMode} {E : Nat} (hE : E ≤ 14) {x : Int} (hx : In16 x) :
    srmbp m (E : Int) (BitVec.ofInt 16 x) = .ok (BitVec.ofInt 16 (sat (x * 2 ^ E))) := by
  rcases Nat.eq_zero_or_pos E with rfl | h0
  · rw [Int.pow_zero, Int.mul_one, sat_eq hx]; rfl
  · obtain ⟨r, h1, h2⟩ := C31_multiplyByPOT_pos (w := 16) m (by decide) E h0 (by omega) (by omega)
      (BitVec.ofInt 16 x)
    rw [h1]
    congr 1
    apply eq_ofInt
    rw [toI hx] at h2
    rw [h2]; rfl

theorem oneShl_I {k : Nat} (hk : k ≤ 14) : oneShl 16 (k : Int) = .ok (BitVec.ofInt 16 (2 ^ k)) := by
  unfold oneShl
  rw [if_neg (by omega), Int.toNat_natCast]

theorem dup_I (x : Int) : dup 16 x = BitVec.ofInt 16 x := rfl

theorem select_I (P : Prop) [Decidable P] (a b : BitVec 16) :
    selectUsingMask (if P then BitVec.allOnes 16 else 0) a b = if P then a else b := by
  by_cases h : P
  · rw [if_pos h, if_pos h, select_allOnes]
  · rw [if_neg h, if_neg h, select_zero]

/-- The constants, rounded to 16 bits. -/
theorem constants16 :
    constant 16 1895147668 = .ok (BitVec.ofInt 16 28918) ∧ constant 16 715827883 = .ok (BitVec.ofInt 16 10923) ∧
    constant 16 1672461947 = .ok (BitVec.ofInt 16 25520) ∧ constant 16 1302514674 = .ok (BitVec.ofInt 16 19875) ∧
    constant 16 790015084 = .ok (BitVec.ofInt 16 12055) ∧ constant 16 290630308 = .ok (BitVec.ofInt 16 4435) ∧
    constant 16 39332535 = .ok (BitVec.ofInt 16 600) ∧ constant 16 720401 = .ok (BitVec.ofInt 16 11) ∧
    constant 16 242 = .ok (BitVec.ofInt 16 0) ∧ constant 16 1515870810 = .ok (BitVec.ofInt 16 23130) ∧
    constant 16 (-1010580540) = .ok (BitVec.ofInt 16 (-15420)) ∧
    constant 16 (2 ^ 30) = .ok (BitVec.ofInt 16 16384) := by
  refine ⟨?_, ?_, ?_, ?_, ?_, ?_, ?_, ?_, ?_, ?_, ?_, ?_⟩ <;> decide

/-! ## exp on the interval -/

/-- The value of `exp_on_interval_between_negative_one_quarter_and_0_excl`. -/
def expI (a : Int) : Int :=
  let x := a + 4096
  let x2 := sm x x
  let x3 := sm x2 x
  let x4 := sm x2 x2
  let t := sm (rd 2 x4 + x3) 10923 + x2
  let v := x + rd 1 t
  28918 + sm 28918 v

theorem sm_between {a b L U : Int} (h1 : L * 32768 - 16384 ≤ a * b)
    (h2 : a * b < (U + 1) * 32768 - 16384) : L ≤ sm a b ∧ sm a b ≤ U := by
  unfold sm; omega

/-- Bounds of the intermediate values of `expI`. -/
theorem expI_bounds {a : Int} (h1 : -8192 ≤ a) (h2 : a < 0) :
    let x := a + 4096
    let x2 := sm x x
    let x3 := sm x2 x
    let x4 := sm x2 x2
    let t := sm (rd 2 x4 + x3) 10923 + x2
    let v := x + rd 1 t
    (0 ≤ x2 ∧ x2 ≤ 512) ∧ (-64 ≤ x3 ∧ x3 ≤ 64) ∧ (0 ≤ x4 ∧ x4 ≤ 8) ∧
    (0 ≤ rd 2 x4 ∧ rd 2 x4 ≤ 2) ∧ (-22 ≤ t ∧ t ≤ 534) ∧
    (-11 ≤ rd 1 t ∧ rd 1 t ≤ 267) ∧ (-4107 ≤ v ∧ v ≤ 4362) ∧
    25000 ≤ expI a ∧ expI a ≤ 32767 := by
  intro x x2 x3 x4 t v
  have hx : -4096 ≤ x ∧ x ≤ 4095 := by show _ ≤ a + _ ∧ a + _ ≤ _; omega
  have hxx : 0 ≤ x * x ∧ x * x ≤ 4096 * 4096 := by constructor <;> nlinarith
  have b2 : 0 ≤ x2 ∧ x2 ≤ 512 := sm_between (by omega) (by omega)
  have h3 : -(512 * 4096) ≤ x2 * x ∧ x2 * x ≤ 512 * 4096 := by constructor <;> nlinarith
  have b3 : -64 ≤ x3 ∧ x3 ≤ 64 := sm_between (by omega) (by omega)
  have h4 : 0 ≤ x2 * x2 ∧ x2 * x2 ≤ 512 * 512 := by constructor <;> nlinarith
  have b4 : 0 ≤ x4 ∧ x4 ≤ 8 := sm_between (by omega) (by omega)
  have b5 : 0 ≤ rd 2 x4 ∧ rd 2 x4 ≤ 2 := by unfold rd; rw [if_pos b4.1]; omega
  have b6 : -22 ≤ t ∧ t ≤ 534 := by
    show _ ≤ sm (rd 2 x4 + x3) 10923 + x2 ∧ sm (rd 2 x4 + x3) 10923 + x2 ≤ _
    unfold sm; omega
  have b7 : -11 ≤ rd 1 t ∧ rd 1 t ≤ 267 := by unfold rd; split <;> omega
  have b8 : -4107 ≤ v ∧ v ≤ 4362 := by
    show _ ≤ x + _ ∧ x + _ ≤ _; omega
  have b9 : 25000 ≤ expI a := by
    show 25000 ≤ 28918 + sm 28918 v
    unfold sm; omega
  refine ⟨b2, b3, b4, b5, b6, b7, b8, b9, ?_⟩
  show 28918 + sm 28918 v ≤ _
  unfold sm; omega

/-- Sharper bounds away from 0. -/
theorem expI_le {a : Int} (h1 : -8192 ≤ a) :
    (a ≤ -4 → expI a ≤ 32766) ∧ (a ≤ -8 → expI a ≤ 32760) ∧ (a ≤ -16 → expI a ≤ 32753) := by
  have key : ∀ X B : Int, 267 ≤ X → X ≤ 4095 → a + 4096 ≤ X → ∀ X2, X * X < (X2 + 1) * 32768 - 16384 → X2 ≤ 512 →
      28918 * (X + (22 + X2 + 1) / 2) < (B - 28918 + 1) * 32768 - 16384→
      expI a ≤ B := by
    intro X B hX0 hX hle X2 hX2 hX2' hB
    obtain ⟨b2, b3, b4, b5, b6, b7, b8, -, -⟩ := expI_bounds h1 (show a < 0 by omega)
    have hB2 : ∀ v : Int, v ≤ X + (22 + X2 + 1) / 2 → 28918 + sm 28918 v ≤ B := by
      intro v hv; unfold sm; omega
    unfold expI
    dsimp only
    apply hB2
    by_cases hn : a + 4096 ≤ 0
    · have : 0 ≤ X2 := by
        by_contra hc
        have := Int.mul_nonneg (show 0 ≤ X by omega) (show 0 ≤ X by omega)
        omega
      omega
    · have hxx : (a + 4096) * (a + 4096) ≤ X * X := Int.mul_le_mul hle hle (by omega) (by omega)
      have b2' : sm (a + 4096) (a + 4096) ≤ X2 := by
        unfold sm
        generalize (a + 4096) * (a + 4096) = p at *
        generalize X * X = q at *
        omega
      have : sm (rd 2 (sm (sm (a + 4096) (a + 4096)) (sm (a + 4096) (a + 4096))) +
          sm (sm (a + 4096) (a + 4096)) (a + 4096)) 10923 ≤ 22 := by unfold sm at *; omega
      have : rd 1 (sm (rd 2 (sm (sm (a + 4096) (a + 4096)) (sm (a + 4096) (a + 4096))) +
          sm (sm (a + 4096) (a + 4096)) (a + 4096)) 10923 + sm (a + 4096) (a + 4096)) ≤ (22 + X2 + 1) / 2 := by
        generalize sm (rd 2 (sm (sm (a + 4096) (a + 4096)) (sm (a + 4096) (a + 4096))) +
          sm (sm (a + 4096) (a + 4096)) (a + 4096)) 10923 = y at *
        generalize sm (a + 4096) (a + 4096) = z at *
        unfold rd
        split <;> omega
      omega
  refine ⟨fun h => key 4092 _ (by omega) (by omega) (by omega) 511 (by norm_num) (by omega) (by norm_num),
    fun h => key 4088 _ (by omega) (by omega) (by omega) 510 (by norm_num) (by omega) (by norm_num),
    fun h => key 4080 _ (by omega) (by omega) (by omega) 508 (by norm_num) (by omega) (by norm_num)⟩

theorem expInterval_I {m : OvMode} {a : Int} (h1 : -8192 ≤ a) (h2 : a < 0) :
    expInterval m (BitVec.ofInt 16 a) = .ok (BitVec.ofInt 16 (expI a)) := by
  obtain ⟨b2, b3, b4, b5, b6, b7, b8, b9, b10⟩ := expI_bounds h1 h2
  obtain ⟨k1, k2, -⟩ := constants16
  unfold expInterval
  rw [k1, ok_bind, k2, ok_bind]
  have hc : constantPOT 16 0 (-3) = .ok (BitVec.ofInt 16 4096) := rfl
  rw [hc, ok_bind, add_I (in16 (by omega)) (in16 (by omega)) (in16 (by omega)), ok_bind]
  dsimp only
  have hx : In16 (a + 4096) := in16 (by omega)
  rw [srdhm_I hx hx (by omega), srdhm_I (in16 (by omega)) hx (by omega),
    srdhm_I (in16 (by omega)) (in16 (by omega)) (by omega)]
  have e1 : (-2 : Int) = -((1 + 1 : Nat) : Int) := rfl
  rw [e1, srmbp_neg_I (by omega) (in16 (by omega)), ok_bind]
  change (add m (BitVec.ofInt 16 (rd 2 _)) _ >>= _) = _
  rw [add_I (in16 (by omega)) (in16 (by omega)) (in16 (by omega)), ok_bind,
    srdhm_I (in16 (by omega)) (in16 (by omega)) (by omega)]
  have hs : In16 (sm (rd 2 (sm (sm (a + 4096) (a + 4096)) (sm (a + 4096) (a + 4096))) +
      sm (sm (a + 4096) (a + 4096)) (a + 4096)) 10923) := by
    rw [in16_iff]; omega
  rw [add_I hs (in16 (by omega)) (in16 (by omega)), ok_bind]
  have e2 : (-1 : Int) = -((0 + 1 : Nat) : Int) := rfl
  rw [e2, srmbp_neg_I (by omega) (in16 (by omega)), ok_bind]
  change (add m _ (BitVec.ofInt 16 (rd 1 _)) >>= _) = _
  rw [add_I hx (in16 (by omega)) (in16 (by omega)), ok_bind]
  unfold addSaturatingIf16Bit saturatingAdd
  rw [if_pos rfl, srdhm_I (in16 (by omega)) (in16 (by omega)) (by omega)]
  have hl : sm 28918 (a + 4096 + rd 1 (sm (rd 2 (sm (sm (a + 4096) (a + 4096))
      (sm (a + 4096) (a + 4096))) + sm (sm (a + 4096) (a + 4096)) (a + 4096))
      10923 + sm (a + 4096) (a + 4096))) = expI a - 28918 := by
    unfold expI; dsimp only; omega
  rw [hl, toI (in16 (by omega)), toI (in16 (by omega))]
  have hmx : maxW 16 = 32767 := by decide
  have hmn : minW 16 = -32768 := by decide
  rw [hmx, hmn]
  congr 2
  omega

/-! ## exp on negative values -/

/-- One barrel step: multiply if bit `k` of the remainder is set. -/
def barrelI (cond : Bool) (k : Nat) (rem mult r : Int) : Int :=
  if cond = true ∧ rem / 2 ^ k % 2 = 1 then sm r mult else r

/-- The value of `exp_on_negative_values` for `ib` integer bits. -/
def expN (ib : Nat) (a : Int) : Int :=
  let q : Int := 2 ^ (13 - ib)
  let amod := a % q - q
  let rem := amod - a
  let r := expI (amod * 2 ^ ib)
  let r := barrelI true (13 - ib) rem 25520 r
  let r := barrelI true (14 - ib) rem 19875 r
  let r := barrelI (0 < ib) (15 - ib) rem 12055 r
  let r := barrelI (1 < ib) (16 - ib) rem 4435 r
  let r := barrelI (2 < ib) (17 - ib) rem 600 r
  let r := barrelI (3 < ib) (18 - ib) rem 11 r
  let r := barrelI (4 < ib) (19 - ib) rem 0 r
  let r := if 5 < ib ∧ a < -2 ^ (20 - ib) then 0 else r
  if a = 0 then 32767 else r

theorem barrelI_bounds {cond : Bool} {k : Nat} {rem mult r B : Int} (hm : 0 ≤ mult ∧ mult < 32768)
    (hr : 0 ≤ r ∧ r ≤ B) (hB : B < 32768) :
    0 ≤ barrelI cond k rem mult r ∧ barrelI cond k rem mult r ≤ B := by
  unfold barrelI
  split
  · have h1 : 0 ≤ r * mult := Int.mul_nonneg hr.1 hm.1
    have h2 : r * mult ≤ r * 32767 := Int.mul_le_mul_of_nonneg_left (by omega) hr.1
    unfold sm; omega
  · exact hr

/-- A single bit of a two's complement number. -/
theorem and_bit {k : Nat} (hk : k ≤ 14) (x : Int) :
    (bitAnd (BitVec.ofInt 16 x) (BitVec.ofInt 16 (2 ^ k)) ≠ 0) ↔ x / 2 ^ k % 2 = 1 := by
  have e : BitVec.ofInt 16 (2 ^ k) = BitVec.twoPow 16 k := by
    interval_cases k <;> rfl
  have hne : BitVec.twoPow 16 k ≠ 0 := by interval_cases k <;> decide
  unfold bitAnd
  rw [e, BitVec.and_twoPow]
  have hb : (BitVec.ofInt 16 x).getLsbD k = decide (x / 2 ^ k % 2 = 1) := by
    rw [← BitVec.testBit_toNat, Nat.testBit_eq_decide_div_mod_eq, BitVec.toNat_ofInt]
    congr 1
    apply propext
    interval_cases k <;> norm_num <;> omega
  rw [hb]
  by_cases h : x / 2 ^ k % 2 = 1
  · rw [if_pos (by rw [decide_eq_true h])]
    exact ⟨fun _ => h, fun _ => hne⟩
  · rw [if_neg (by rw [decide_eq_false h]; decide)]
    exact ⟨fun hh => absurd rfl hh, fun hh => absurd hh h⟩

theorem expBarrel_I {ib k : Nat} {e mult c rem r : Int} (hk : e < ib → (15 : Int) - ib + e = k ∧ k ≤ 14)
    (hcst : constant 16 mult = .ok (BitVec.ofInt 16 c)) (hm : 0 ≤ c ∧ c < 32768) (hr : In16 r) :
    expBarrel ib (BitVec.ofInt 16 rem) e mult (BitVec.ofInt 16 r) =
      .ok (BitVec.ofInt 16 (barrelI (decide (e < ib)) k rem c r)) := by
  unfold expBarrel barrelI
  by_cases h : (ib : Int) > e
  · obtain ⟨hk1, hk2⟩ := hk h
    rw [if_pos h, hcst, ok_bind]
    have ef : fracBits 16 (ib : Int) + e = (k : Int) := by
      rw [← hk1]; unfold fracBits; norm_num
    rw [ef, oneShl_I hk2, ok_bind]
    have em : maskIfNonZero (bitAnd (BitVec.ofInt 16 rem) (BitVec.ofInt 16 (2 ^ k))) =
        if rem / 2 ^ k % 2 = 1 then BitVec.allOnes 16 else 0 := by
      unfold maskIfNonZero
      by_cases hb : rem / 2 ^ k % 2 = 1
      · rw [if_pos ((and_bit hk2 rem).2 hb), if_pos hb]; rfl
      · rw [if_neg (fun hh => hb ((and_bit hk2 rem).1 hh)), if_neg hb]
    rw [em, select_I, decide_eq_true (show e < (ib : Int) from h)]
    rw [srdhm_I hr (in16 (by omega)) (by omega)]
    by_cases hb : rem / 2 ^ k % 2 = 1
    · rw [if_pos hb, if_pos ⟨rfl, hb⟩]; rfl
    · rw [if_neg hb, if_neg (fun hh => hb hh.2)]; rfl
  · rw [if_neg h, decide_eq_false h, if_neg (by simp)]; rfl

theorem expClamp_I {ib : Nat} (hib : ib ≤ 13) {a r : Int} (ha : In16 a) :
    expClamp ib (BitVec.ofInt 16 a) (BitVec.ofInt 16 r) =
      .ok (BitVec.ofInt 16 (if 5 < ib ∧ a < -2 ^ (20 - ib) then 0 else r)) := by
  unfold expClamp
  by_cases h : (ib : Int) > 5
  · rw [if_pos h]
    dsimp only
    rw [if_neg (by omega), ok_bind, show (36 : Int) - ib = ((36 - ib : Nat) : Int) by omega,
      Int.toNat_natCast]
    have hcst : constant 16 (-2 ^ (36 - ib)) = .ok (BitVec.ofInt 16 (-2 ^ (20 - ib))) := by
      have h6 : 6 ≤ ib := by omega
      interval_cases ib <;> decide
    have hn : In16 (-2 ^ (20 - ib)) := by
      have h1 := two_pow_pos' (20 - ib)
      have h2 := pow_le_pow' (show 20 - ib ≤ 14 by omega)
      rw [in16_iff]; norm_num at h2; omega
    rw [hcst, ok_bind, maskLT_eq (by decide), select_I, toI ha, toI hn]
    by_cases hc : a < -2 ^ (20 - ib)
    · rw [if_pos hc, if_pos ⟨by omega, hc⟩]; rfl
    · rw [if_neg hc, if_neg (fun hh => hc hh.2)]; rfl
  · rw [if_neg h, if_neg (by omega)]; rfl

/-- Quotient and remainder by the quarter. -/
theorem quarter_facts {ib : Nat} (hib : ib ≤ 13) {a : Int} (ha : In16 a) (h0 : a ≤ 0) :
    let q : Int := 2 ^ (13 - ib)
    let amod := a % q - q
    (0 < q ∧ q ≤ 8192) ∧ (-q ≤ amod ∧ amod < 0) ∧ (-8192 ≤ amod * 2 ^ ib ∧ amod * 2 ^ ib ≤ -2 ^ ib) ∧
      (-q ≤ amod - a ∧ amod - a < 32768) ∧ (a < 0 → 0 ≤ amod - a) ∧ (amod - a) % q = 0 := by
  intro q amod
  have hq : 0 < q := two_pow_pos' (13 - ib)
  have hq2 := pow_le_pow' (show 13 - ib ≤ 13 by omega)
  have hi := two_pow_pos' ib
  have hprod : q * 2 ^ ib = 8192 := by
    show (2 : Int) ^ (13 - ib) * 2 ^ ib = _
    rw [← Int.pow_add, Nat.sub_add_cancel hib]; norm_num
  have m1 := Int.emod_nonneg a (show q ≠ 0 by omega)
  have m2 := Int.emod_lt_of_pos a hq
  have m3 := Int.emod_add_mul_ediv a q
  have hm : -q ≤ amod ∧ amod < 0 := by show -q ≤ a % q - q ∧ a % q - q < 0; omega
  have l1 : (-q) * 2 ^ ib ≤ amod * 2 ^ ib := Int.mul_le_mul_of_nonneg_right hm.1 (by omega)
  have l2 : amod * 2 ^ ib ≤ (-1) * 2 ^ ib := Int.mul_le_mul_of_nonneg_right (by omega) (by omega)
  rw [Int.neg_mul, hprod] at l1
  rw [in16_iff] at ha
  have e : amod - a = q * (-(a / q) - 1) := by
    show a % q - q - a = _
    rw [Int.mul_sub, Int.mul_neg]; omega
  refine ⟨⟨hq, by norm_num at hq2; exact hq2⟩, hm, ⟨l1, by omega⟩, ⟨?_, ?_⟩, ?_, ?_⟩
  · show -q ≤ a % q - q - a; omega
  · show a % q - q - a < _; omega
  · intro ha0
    have : a / q < 0 := Int.ediv_neg_of_neg_of_pos ha0 hq
    rw [e]
    exact Int.mul_nonneg (by omega) (by omega)
  · rw [e]; exact Int.mul_emod_right _ _

/-- An upper bound of the results for arguments other than 0. -/
def expTop (ib : Nat) : Int := if 4 ≤ ib then 32753 else if 3 ≤ ib then 32760 else if 2 ≤ ib then 32766 else 32767

theorem expI_top {ib : Nat} {z : Int} (h1 : -8192 ≤ z) (h2 : z ≤ -2 ^ ib) :
    0 ≤ expI z ∧ expI z ≤ expTop ib := by
  have hp := two_pow_pos' ib
  obtain ⟨-, -, -, -, -, -, -, lo, hi⟩ := expI_bounds h1 (by omega)
  obtain ⟨t2, t3, t4⟩ := expI_le h1
  refine ⟨by omega, ?_⟩
  unfold expTop
  split
  · rename_i h
    have := pow_le_pow' h
    norm_num at this
    exact t4 (by omega)
  · split
    · rename_i h
      have := pow_le_pow' h
      norm_num at this
      exact t3 (by omega)
    · split
      · rename_i h
        have := pow_le_pow' h
        norm_num at this
        exact t2 (by omega)
      · exact hi

/-- The result before the final selections, with its bounds. -/
theorem expNeg_I {m : OvMode} {ib : Nat} (hib : ib ≤ 13) {a : Int} (ha : In16 a) (h0 : a ≤ 0) :
    expNeg m ib (BitVec.ofInt 16 a) = .ok (BitVec.ofInt 16 (expN ib a)) ∧
      0 ≤ expN ib a ∧ expN ib a ≤ 32767 ∧ (a < 0 → expN ib a ≤ expTop ib) := by
  obtain ⟨⟨hq0, hq1⟩, hm, hz, ⟨hr1, hr2⟩, -, -⟩ := quarter_facts hib ha h0
  obtain ⟨-, -, k1, k2, k3, k4, k5, k6, k7, -⟩ := constants16
  have hz2 : (a % 2 ^ (13 - ib) - 2 ^ (13 - ib)) * 2 ^ ib < 0 := by
    have := two_pow_pos' ib; omega
  have hk : constantPOT 16 (ib : Int) (-2) = .ok (BitVec.ofInt 16 (2 ^ (13 - ib))) := by
    unfold constantPOT
    rw [show fracBits 16 (ib : Int) + -2 = ((13 - ib : Nat) : Int) by unfold fracBits; omega]
    exact oneShl_I (by omega)
  unfold expNeg
  rw [hk, ok_bind, dup_I, sub_I (in16 (by omega)) (in16 (by omega)) (in16 (by omega)), ok_bind]
  have hand : bitAnd (BitVec.ofInt 16 a) (BitVec.ofInt 16 (2 ^ (13 - ib) - 1)) =
      BitVec.ofInt 16 (a % 2 ^ (13 - ib)) := by
    apply eq_ofInt
    have := toInt_and_mask (w := 16) (by decide) (e := 13 - ib) (by omega) (BitVec.ofInt 16 a)
    rw [toI ha] at this
    exact this
  rw [hand, sub_I (in16 (by omega)) (in16 (by omega)) (in16 (by omega)), ok_bind]
  unfold rescale
  rw [Int.sub_zero, srmbp_pos_I (by omega) (in16 (by omega)), ok_bind, sat_eq (in16 (by omega)),
    expInterval_I hz.1 hz2, ok_bind]
  rw [sub_I (in16 (by omega)) ha (in16 (by omega)), ok_bind]
  obtain ⟨lo, hi⟩ := expI_top hz.1 hz.2
  have hT : expTop ib ≤ 32767 := by unfold expTop; split; omega; split; omega; split <;> omega
  have hT0 : 0 ≤ expTop ib := by unfold expTop; split; omega; split; omega; split <;> omega
  generalize expTop ib = T at *
  have hbar : ∀ {cond : Bool} {k : Nat} {rem mult r : Int}, 0 ≤ mult ∧ mult < 32768 →
      0 ≤ r ∧ r ≤ T → 0 ≤ barrelI cond k rem mult r ∧ barrelI cond k rem mult r ≤ T :=
    fun h1 h2 => barrelI_bounds h1 h2 (by omega)
  unfold expN
  dsimp only
  generalize hrem : a % 2 ^ (13 - ib) - 2 ^ (13 - ib) - a = rem at hr1 hr2 ⊢
  generalize expI ((a % 2 ^ (13 - ib) - 2 ^ (13 - ib)) * 2 ^ ib) = r0 at lo hi ⊢
  rw [expBarrel_I (k := 13 - ib) (by omega) k1 (by omega) (in16 (by omega)), ok_bind]
  have c1 : decide ((-2 : Int) < ib) = true := decide_eq_true (by omega)
  have c2 : decide ((-1 : Int) < ib) = true := decide_eq_true (by omega)
  have c3 : decide ((0 : Int) < ib) = decide (0 < ib) := by congr 1; apply propext; omega
  have c4 : decide ((1 : Int) < ib) = decide (1 < ib) := by congr 1; apply propext; omega
  have c5 : decide ((2 : Int) < ib) = decide (2 < ib) := by congr 1; apply propext; omega
  have c6 : decide ((3 : Int) < ib) = decide (3 < ib) := by congr 1; apply propext; omega
  have c7 : decide ((4 : Int) < ib) = decide (4 < ib) := by congr 1; apply propext; omega
  rw [c1]
  obtain ⟨p1, p1'⟩ := hbar (cond := true) (k := 13 - ib) (rem := rem) (mult := 25520) (r := r0)
    (by omega) (by omega)
  generalize barrelI true (13 - ib) rem 25520 r0 = r1 at p1 p1' ⊢
  rw [expBarrel_I (k := 14 - ib) (by omega) k2 (by omega) (in16 (by omega)), ok_bind, c2]
  obtain ⟨p2, p2'⟩ := hbar (cond := true) (k := 14 - ib) (rem := rem) (mult := 19875) (r := r1)
    (by omega) (by omega)
  generalize barrelI true (14 - ib) rem 19875 r1 = r2 at p2 p2' ⊢
  rw [expBarrel_I (k := 15 - ib) (by omega) k3 (by omega) (in16 (by omega)), ok_bind, c3]
  obtain ⟨p3, p3'⟩ := hbar (cond := decide (0 < ib)) (k := 15 - ib) (rem := rem) (mult := 12055)
    (r := r2) (by omega) (by omega)
  generalize barrelI (decide (0 < ib)) (15 - ib) rem 12055 r2 = r3 at p3 p3' ⊢
  rw [expBarrel_I (k := 16 - ib) (by omega) k4 (by omega) (in16 (by omega)), ok_bind, c4]
  obtain ⟨p4, p4'⟩ := hbar (cond := decide (1 < ib)) (k := 16 - ib) (rem := rem) (mult := 4435)
    (r := r3) (by omega) (by omega)
  generalize barrelI (decide (1 < ib)) (16 - ib) rem 4435 r3 = r4 at p4 p4' ⊢
  rw [expBarrel_I (k := 17 - ib) (by omega) k5 (by omega) (in16 (by omega)), ok_bind, c5]
  obtain ⟨p5, p5'⟩ := hbar (cond := decide (2 < ib)) (k := 17 - ib) (rem := rem) (mult := 600)
    (r := r4) (by omega) (by omega)
  generalize barrelI (decide (2 < ib)) (17 - ib) rem 600 r4 = r5 at p5 p5' ⊢
  rw [expBarrel_I (k := 18 - ib) (by omega) k6 (by omega) (in16 (by omega)), ok_bind, c6]
  obtain ⟨p6, p6'⟩ := hbar (cond := decide (3 < ib)) (k := 18 - ib) (rem := rem) (mult := 11)
    (r := r5) (by omega) (by omega)
  generalize barrelI (decide (3 < ib)) (18 - ib) rem 11 r5 = r6 at p6 p6' ⊢
  rw [expBarrel_I (k := 19 - ib) (by omega) k7 (by omega) (in16 (by omega)), ok_bind, c7]
  obtain ⟨p7, p7'⟩ := hbar (cond := decide (4 < ib)) (k := 19 - ib) (rem := rem) (mult := 0)
    (r := r6) (by omega) (by omega)
  generalize barrelI (decide (4 < ib)) (19 - ib) rem 0 r6 = r7 at p7 p7' ⊢
  rw [expClamp_I hib ha, ok_bind]
  have hone : one 16 0 = .ok (BitVec.ofInt 16 32767) := rfl
  rw [hone, ok_bind, (C33_masks (by decide) (BitVec.ofInt 16 a) 0).2.1, select_I, toI ha]
  refine ⟨?_, ?_⟩
  · by_cases hz : a = 0
    · rw [if_pos hz, if_pos hz]; rfl
    · rw [if_neg hz, if_neg hz]; rfl
  · have hcl : 0 ≤ (if 5 < ib ∧ a < -2 ^ (20 - ib) then 0 else r7) ∧
        (if 5 < ib ∧ a < -2 ^ (20 - ib) then 0 else r7) ≤ T := by
      split <;> omega
    refine ⟨?_, ?_, ?_⟩
    · split <;> omega
    · split <;> omega
    · intro hn
      rw [if_neg (by omega)]; exact hcl.2

/-! ## Newton-Raphson division, by a check of all denominators -/

/-- One round of the division: `x` approximates `2^28 / h`. -/
def stepI (h x : Int) : Int := x + 4 * sm x (8192 - sm h x)

/-- The first approximation. -/
def startI (h : Int) : Int := 23130 + sm h (-15420)

/-- Approximation of `2^28 / h` after three rounds. -/
def newtonI (h : Int) : Int := stepI h (stepI h (stepI h (startI h)))

/-- `p` holds for all of the `2^d` numbers from `b` on. -/
def allIn : Nat → Nat → (Nat → Bool) → Bool
  | 0, b, p => p b
  | d + 1, b, p => allIn d b p && allIn d (Nat.add b (Nat.pow 2 d)) p

theorem allIn_spec {p : Nat → Bool} : ∀ {d b : Nat}, allIn d b p = true → ∀ n, b ≤ n → n < b + 2 ^ d → p n = true
  | 0, b, h, n, h1, h2 => by
    have : n = b := by simpa using (show n = b by omega)
    rw [this]; exact h
  | d + 1, b, h, n, h1, h2 => by
    have h' : (allIn d b p && allIn d (b + 2 ^ d) p) = true := h
    rw [Bool.and_eq_true] at h'
    by_cases hn : n < b + 2 ^ d
    · exact allIn_spec h'.1 n h1 hn
    · exact allIn_spec h'.2 n (by omega) (by rw [Nat.pow_succ] at h2; omega)

/-- Evaluate `n` before `k` (the kernel evaluates arguments late). -/
def force (n : Nat) (k : Nat → Bool) : Bool := Nat.rec (k 0) (fun m _ => k (Nat.succ m)) n

theorem force_eq (n : Nat) (k : Nat → Bool) : force n k = k n := by cases n <;> rfl

/-- `sm h x` for natural numbers. -/
def smN (h x : Nat) : Nat := Nat.div (Nat.add (Nat.mul h x) 16384) 32768

/-- One round in natural numbers, given `s = sm h x`. -/
def stepN (s x : Nat) : Nat := Nat.sub (Nat.mul 4 (smN x (Nat.sub 40960 s))) (Nat.mul 3 x)

def startN (h : Nat) : Nat := Nat.sub (Nat.add 23130 (smN h 17348)) h

/-- Within a round nothing overflows. -/
def okStep (s x : Nat) : Bool := Nat.ble 7000 s && Nat.ble s 9400 && Nat.ble 7000 x && Nat.ble x 20000

/-- The three rounds for the denominator `h`; the result is within 6 units of the quotient. -/
def newtonCheck (h : Nat) : Bool :=
  force h fun h => force (startN h) fun x => force (smN h x) fun s =>
  okStep s x && force (stepN s x) fun x => force (smN h x) fun s =>
  okStep s x && force (stepN s x) fun x => force (smN h x) fun s =>
  okStep s x && force (stepN s x) fun x =>
    Nat.ble 8190 x && Nat.ble x 16384 &&
    Nat.ble 536870912 (Nat.mul (Nat.add x 3) (Nat.mul 2 h)) &&
    Nat.ble (Nat.mul (Nat.sub x 3) (Nat.add (Nat.mul 2 h) 1)) 536870912 &&
    (Nat.ble 32765 h || Nat.ble 8192 x) && (Nat.ble 32761 h || Nat.ble 8193 x)

theorem newtonCheck_all : allIn 14 16384 newtonCheck = true := by decide +kernel

theorem smN_eq (h x : Nat) : ((smN h x : Nat) : Int) = sm h x := by
  show (((h * x + 16384) / 32768 : Nat) : Int) = _
  unfold sm; push_cast; rfl

theorem startN_eq {h : Nat} (hh : h < 32768) : ((startN h : Nat) : Int) = startI h := by
  show ((23130 + (h * 17348 + 16384) / 32768 - h : Nat) : Int) = _
  unfold startI sm
  omega

/-- One round, with the ranges of its intermediate values. -/
theorem stepN_eq {h x : Nat} (ho : okStep (smN h x) x = true) :
    ((stepN (smN h x) x : Nat) : Int) = stepI h x ∧ (7000 ≤ sm h x ∧ sm h x ≤ 9400) ∧
      ((7000 : Int) ≤ x ∧ (x : Int) ≤ 20000) ∧
      (-800 ≤ sm x (8192 - sm h x) ∧ sm x (8192 - sm h x) ≤ 800) := by
  simp only [okStep, Bool.and_eq_true, Nat.ble_eq] at ho
  obtain ⟨⟨⟨o1, o2⟩, o3⟩, o4⟩ := ho
  have hs := smN_eq h x
  generalize smN h x = s at *
  rw [← hs]
  have hp : (x : Int) * (8192 - s) = (x : Int) * 8192 - x * s := by rw [Int.mul_sub]
  have l1 : (7000 : Int) * x ≤ x * s := by rw [Int.mul_comm]; exact Int.mul_le_mul_of_nonneg_left (by omega) (by omega)
  have l2 : (x : Int) * s ≤ x * 9400 := Int.mul_le_mul_of_nonneg_left (by omega) (by omega)
  refine ⟨?_, by omega, by omega, ?_⟩
  · show ((4 * ((x * (40960 - s) + 16384) / 32768) - 3 * x : Nat) : Int) = _
    unfold stepI
    rw [← hs]
    unfold sm
    have e : ((x * (40960 - s) : Nat) : Int) = (x : Int) * (8192 - s) + 32768 * x := by
      rw [Int.natCast_mul, Int.natCast_sub (by omega)]; push_cast; ring
    rw [hp] at e ⊢
    generalize x * (40960 - s) = y at *
    generalize (x : Int) * s = z at *
    omega
  · unfold sm
    rw [hp]
    generalize (x : Int) * s = z at *
    omega

theorem one2_I : one 16 2 = .ok (BitVec.ofInt 16 8192) := rfl
theorem one0_I : one 16 0 = .ok (BitVec.ofInt 16 32767) := rfl

theorem newtonStep_I {m : OvMode} {h x : Nat} (hh : h < 32768) (ho : okStep (smN h x) x = true) :
    newtonStep m (BitVec.ofInt 16 h) (BitVec.ofInt 16 x) = .ok (BitVec.ofInt 16 (stepI h x)) := by
  obtain ⟨-, s, hx, p⟩ := stepN_eq ho
  unfold newtonStep
  dsimp only
  rw [srdhm_I (in16 (by omega)) (in16 (by omega)) (by omega), one2_I, ok_bind,
    sub_I (in16 (by omega)) (in16 (by omega)) (in16 (by omega)), ok_bind,
    srdhm_I (in16 (by omega)) (in16 (by omega)) (by omega)]
  unfold rescale
  have e2 : (4 : Int) - 2 = ((2 : Nat) : Int) := rfl
  rw [e2, srmbp_pos_I (by decide) (in16 (by omega)), ok_bind]
  rw [sat_eq (in16 (by omega)), add_I (in16 (by omega)) (in16 (by omega)) (in16 (by omega))]
  unfold stepI
  rw [show ((2 : Int) ^ 2) = 4 by norm_num, Int.mul_comm 4]

/-- The division: no fault, and the facts checked. -/
theorem newton_I {m : OvMode} {a : Int} (h0 : 0 ≤ a) (h1 : a < 32768) :
    ∃ x, newton m (BitVec.ofInt 16 a) = .ok (BitVec.ofInt 16 x) ∧ newtonI ((a + 32768) / 2) = x ∧
      8190 ≤ x ∧ x ≤ 16384 ∧ 536870912 ≤ (x + 3) * (a + 32768) ∧ (x - 3) * (a + 32768) ≤ 536870912 ∧
      (a ≤ 32761 → 8192 ≤ x) ∧ (a ≤ 32753 → 8193 ≤ x) := by
  obtain ⟨h, hh⟩ : ∃ h : Nat, (h : Int) = (a + 32768) / 2 := ⟨((a + 32768) / 2).toNat, by omega⟩
  have r1 : 16384 ≤ h := by omega
  have r2 : h < 32768 := by omega
  rw [← hh]
  have hc := allIn_spec newtonCheck_all h r1 (by omega)
  simp only [newtonCheck, force_eq, Bool.and_eq_true] at hc
  obtain ⟨o1, o2, o3, hf⟩ := hc
  have q1 := (stepN_eq o1).1
  have q2 := (stepN_eq o2).1
  have q3 := (stepN_eq o3).1
  rw [startN_eq r2] at q1
  rw [q1] at q2
  rw [q2] at q3
  have hhd : roundingHalfSum (BitVec.ofInt 16 a) (BitVec.ofInt 16 32767) = BitVec.ofInt 16 h := by
    unfold roundingHalfSum
    dsimp only
    rw [toI (in16 (by omega)), toI (in16 (by omega)), if_pos (by omega),
      Int.tdiv_eq_ediv_of_nonneg (by omega), hh]
    congr 2
    omega
  obtain ⟨-, -, -, -, -, -, -, -, -, k1, k2, -⟩ := constants16
  have hx0 := startN_eq r2
  have hs : startI h = 23130 + sm h (-15420) := rfl
  have s1 := newtonStep_I (m := m) r2 o1
  have s2 := newtonStep_I (m := m) r2 o2
  have s3 := newtonStep_I (m := m) r2 o3
  have x0r := (stepN_eq o1).2.2.1
  rw [hx0] at s1 x0r
  rw [q1] at s2
  rw [q2] at s3
  refine ⟨newtonI h, ?_, rfl, ?_⟩
  · unfold newton
    rw [one0_I, ok_bind, hhd]
    dsimp only
    rw [k1, ok_bind, k2, ok_bind,
      srdhm_I (in16 (by omega)) (in16 (by omega)) (by omega),
      add_I (in16 (by omega)) (in16 (by omega)) (in16 (by omega)), ok_bind, ← hs,
      s1, ok_bind, s2, ok_bind, s3]
    rfl
  · have e : ((stepN (smN h (stepN (smN h (stepN (smN h (startN h)) (startN h))) (stepN (smN h (startN h)) (startN h))))
        (stepN (smN h (stepN (smN h (startN h)) (startN h))) (stepN (smN h (startN h)) (startN h))) : Nat) : Int) = newtonI h := q3
    generalize stepN (smN h (stepN (smN h (stepN (smN h (startN h)) (startN h))) (stepN (smN h (startN h)) (startN h))))
        (stepN (smN h (stepN (smN h (startN h)) (startN h))) (stepN (smN h (startN h)) (startN h))) = x at *
    rw [← e]
    simp only [Bool.or_eq_true, Nat.ble_eq] at hf
    obtain ⟨⟨⟨⟨⟨f1, f2⟩, f3⟩, f4⟩, f5⟩, f6⟩ := hf
    have f3' : 536870912 ≤ (x + 3) * (2 * h) := f3
    have f4' : (x - 3) * (2 * h + 1) ≤ 536870912 := f4
    have g3 : (536870912 : Int) ≤ ((x : Int) + 3) * (2 * h) := by exact_mod_cast f3'
    have g4 : ((x : Int) - 3) * (2 * h + 1) ≤ 536870912 := by
      have : (((x - 3) * (2 * h + 1) : Nat) : Int) ≤ 536870912 := by exact_mod_cast f4'
      rw [Int.natCast_mul, Int.natCast_sub (by omega)] at this
      push_cast at this
      exact this
    refine ⟨by omega, by omega, le_trans g3 ?_, le_trans ?_ g4, ?_, ?_⟩
    · exact Int.mul_le_mul_of_nonneg_left (by omega) (by omega)
    · exact Int.mul_le_mul_of_nonneg_left (by omega) (by omega)
    · intro; omega
    · intro; omega

end Gemmlowp.Fx16
