import Verif.SimdTrans
import Verif.PropsSimd
import Verif.PropsTrans
/-!
# The vector exp, logistic and tanh compute in every lane what the scalar ones compute

The vector primitives agree with the scalar ones except at a few operands (`Spec.Lanes`).  The proofs
show that these operands do not occur.
-/
namespace Gemmlowp.Simd

open Gemmlowp.Spec Gemmlowp.Isa

variable {n w : Nat} {O : RawOps w (Reg n w)}

theorem lanes_add (h : Lanes O) (a b : Reg n w) (i : Fin n) :
    Fx.add .wrap (a i) (b i) = .ok (O.add a b i) := h.add a b i

theorem mask_nonZero (a : BitVec w) : IsMask (Fx.maskIfNonZero a) := by
  rw [maskNonZero_eq]; exact maskOf_isMask _

theorem mask_zero (a : BitVec w) : IsMask (Fx.maskIfZero a) := mask_nonZero _
theorem mask_lt (a b : BitVec w) : IsMask (Fx.maskIfLessThan a b) := mask_nonZero _
theorem mask_gt (a b : BitVec w) : IsMask (Fx.maskIfGreaterThan a b) := mask_nonZero _

/-- The scalar multiplication of a number with itself does not yield a negative number. -/
theorem srdhm_self (hw : 1 < w) {x : BitVec w} : 0 ≤ (Fx.srdhm x x).toInt := by
  obtain ⟨h1, h2⟩ := Fx.srdhm_spec hw x x
  by_cases h : x.toInt = Fx.minW w ∧ x.toInt = Fx.minW w
  · rw [h1 h]; unfold Fx.maxW; have := two_pow_pos' (w - 1); omega
  · have h3 := h2 h
    have hp := two_pow_pos' (w - 1)
    rw [Spec.nearestUp_iff hp] at h3
    rw [h3]
    have : 0 ≤ x.toInt * x.toInt := mul_self_nonneg _
    apply Int.ediv_nonneg <;> omega

theorem ne_min_of_nonneg {x : Int} (h : 0 ≤ x) : x ≠ Fx.minW w := by
  unfold Fx.minW; have := two_pow_pos' (w - 1); omega

theorem constant_exists (hw : w = 16 ∨ w = 32) (v : Int) : ∃ c, Fx.constant w v = .ok c := by
  unfold Fx.constant
  rcases hw with rfl | rfl
  · obtain ⟨q, h1, -⟩ := Fx.rdpot_ok (m := .trap) (w := 32) (by decide) (e := 16) (by decide) (by decide)
      (BitVec.ofInt 32 v)
    have h1' : Fx.rdpot OvMode.trap (BitVec.ofInt 32 v) ((32 : Int) - (16 : Nat)) = .ok q := h1
    rw [h1']; exact ⟨_, rfl⟩
  · obtain ⟨q, h1, -⟩ := Fx.rdpot_ok (m := .trap) (w := 32) (by decide) (e := 0) (by decide) (by decide)
      (BitVec.ofInt 32 v)
    have h1' : Fx.rdpot OvMode.trap (BitVec.ofInt 32 v) ((32 : Int) - (32 : Nat)) = .ok q := h1
    rw [h1']; exact ⟨_, rfl⟩

/-- The constants that occur as factors are not the least number. -/
theorem constant_factor (hw : w = 16 ∨ w = 32) {v : Int}
    (hv : v = 1895147668 ∨ v = 715827883 ∨ v = 1672461947 ∨ v = 1302514674 ∨ v = 790015084 ∨
      v = 290630308 ∨ v = 39332535 ∨ v = 720401 ∨ v = 242 ∨ v = 1515870810 ∨ v = -1010580540) :
    ∃ c, Fx.constant w v = .ok c ∧ c.toInt ≠ Fx.minW w := by
  rcases hw with rfl | rfl <;> rcases hv with rfl | rfl | rfl | rfl | rfl | rfl | rfl | rfl | rfl | rfl | rfl <;>
    exact ⟨_, rfl, by decide⟩

/-- Operands on which the multiplication agrees with the scalar one. -/
def MulOk (O : RawOps w (Reg n w)) (a b : Reg n w) : Prop :=
  ∀ i, O.srdhm a b i = Fx.srdhm (a i) (b i)

theorem mulOk_left (h : Lanes O) {a b : Reg n w} (ha : ∀ i, (a i).toInt ≠ Fx.minW w) : MulOk O a b :=
  fun i => h.srdhm a b i (fun hh => ha i hh.1)

theorem mulOk_right (h : Lanes O) {a b : Reg n w} (hb : ∀ i, (b i).toInt ≠ Fx.minW w) : MulOk O a b :=
  fun i => h.srdhm a b i (fun hh => hb i hh.2)

/-- `AddSaturatingIf16Bit`. -/
theorem addSat_sim (h : Lanes O) (a b : Reg n w) (i : Fin n) :
    Fx.addSaturatingIf16Bit .wrap (a i) (b i) = .ok (Gen.addSaturatingIf16Bit O a b i) := by
  unfold Fx.addSaturatingIf16Bit Gen.addSaturatingIf16Bit
  by_cases hw : w = 16
  · rw [if_pos hw, if_pos hw, h.saturatingAdd hw]
  · rw [if_neg hw, if_neg hw, h.add]

/-- The exponential on the interval. -/
theorem expInterval_sim (hw : w = 16 ∨ w = 32) (h : Lanes O) (a : Reg n w)
    (ha : ∀ i, (a i).toInt < 0) :
    ∃ r, Gen.expInterval O a = .ok r ∧ ∀ i, Fx.expInterval .wrap (a i) = .ok (r i) := by
  have hw1 : 1 < w := by omega
  obtain ⟨ct, ect, hct⟩ := constant_factor hw (v := 1895147668) (by simp)
  obtain ⟨c3, ec3, hc3⟩ := constant_factor hw (v := 715827883) (by simp)
  obtain ⟨c, ec, hc⟩ : ∃ c : BitVec w, Fx.constantPOT w 0 (-3) = .ok c ∧
      0 ≤ c.toInt ∧ c.toInt < 2 ^ (w - 1) := by
    rcases hw with rfl | rfl <;> exact ⟨_, rfl, by decide⟩
  have ex : ∀ i, Fx.add .wrap (a i) c = .ok (O.add a (O.dup c) i) := fun i => by
    have := h.add a (O.dup c) i
    rwa [h.dup] at this
  have hxm : ∀ i, (O.add a (O.dup c) i).toInt ≠ Fx.minW w := fun i => by
    have e := ex i
    have h1 := inW_toInt (w := w) (by omega) (a i)
    have h2 := ha i
    unfold Fx.add at e
    rw [retW_ok (by unfold InW at *; omega)] at e
    rw [← Except.ok.inj e, toInt_ofIntW (by omega) (by unfold InW at *; omega)]
    unfold InW at h1
    rcases hw with rfl | rfl
    · have e2 : (4096#16) = c := Except.ok.inj (Eq.trans (by rfl) ec)
      rw [← e2, show (4096#16).toInt = 4096 from rfl, show Fx.minW 16 = -32768 from rfl]
      norm_num at h1
      omega
    · have e2 : (268435456#32) = c := Except.ok.inj (Eq.trans (by rfl) ec)
      rw [← e2, show (268435456#32).toInt = 268435456 from rfl, show Fx.minW 32 = -2147483648 from rfl]
      norm_num at h1
      omega
  unfold Gen.expInterval
  rw [ect, ok_bind, ec3, ok_bind, ec, ok_bind]
  dsimp only
  generalize O.add a (O.dup c) = x at *
  have m2 : MulOk O x x := mulOk_left h hxm
  have h2 : ∀ i, (O.srdhm x x i).toInt ≠ Fx.minW w := fun i => by
    rw [m2 i]; exact ne_min_of_nonneg (srdhm_self hw1)
  have m3 : MulOk O (O.srdhm x x) x := mulOk_left h h2
  have m4 : MulOk O (O.srdhm x x) (O.srdhm x x) := mulOk_left h h2
  obtain ⟨q, eq, hq⟩ := h.srmbp (O.srdhm (O.srdhm x x) (O.srdhm x x)) (-2) (by omega) (by omega)
    (by omega) (by omega)
  rw [eq, ok_bind]
  have m5 : MulOk O (O.add q (O.srdhm (O.srdhm x x) x)) (O.dup c3) :=
    mulOk_right h (fun i => by rw [h.dup]; exact hc3)
  obtain ⟨u, eu, hu⟩ := h.srmbp (O.add (O.srdhm (O.add q (O.srdhm (O.srdhm x x) x)) (O.dup c3)) (O.srdhm x x))
    (-1) (by omega) (by omega) (by omega) (by omega)
  rw [eu, ok_bind]
  have m6 : MulOk O (O.dup ct) (O.add x u) := mulOk_left h (fun i => by rw [h.dup]; exact hct)
  refine ⟨_, rfl, fun i => ?_⟩
  unfold Fx.expInterval
  rw [ect, ok_bind, ec3, ok_bind, ec, ok_bind, ex i, ok_bind]
  dsimp only
  rw [← m2 i, ← m3 i, ← m4 i, hq i, ok_bind, h.add, ok_bind]
  have := m5 i
  rw [h.dup] at this
  rw [← this, h.add, ok_bind, hu i, ok_bind, h.add, ok_bind]
  have := m6 i
  rw [h.dup] at this
  rw [← this, ← addSat_sim h, h.dup]

/-- One barrel step. -/
theorem expBarrel_sim (hw : w = 16 ∨ w = 32) (h : Lanes O) {ib : Nat} (hib : ib + 3 ≤ w) {e v : Int}
    (he : -2 ≤ e) (hv : v = 1672461947 ∨ v = 1302514674 ∨ v = 790015084 ∨
      v = 290630308 ∨ v = 39332535 ∨ v = 720401 ∨ v = 242) (rem res : Reg n w) :
    ∃ r, Gen.expBarrel O ib rem e v res = .ok r ∧
      ∀ i, Fx.expBarrel (ib : Int) (rem i) e v (res i) = .ok (r i) := by
  unfold Gen.expBarrel Fx.expBarrel
  by_cases hc : (ib : Int) > e
  · simp only [if_pos hc]
    obtain ⟨c, ec, hcm⟩ := constant_factor hw (v := v) (by omega)
    obtain ⟨b, eb⟩ : ∃ b : BitVec w, Fx.oneShl w (Fx.fracBits w ib + e) = .ok b := by
      unfold Fx.oneShl Fx.fracBits
      rw [if_neg (by omega)]; exact ⟨_, rfl⟩
    simp only [ec, eb, ok_bind]
    refine ⟨_, rfl, fun i => ?_⟩
    have m := mulOk_right h (a := res) (b := O.dup c) (fun i => by rw [h.dup]; exact hcm) i
    rw [h.dup] at m
    have hm : O.maskIfNonZero (O.bitAnd rem (O.dup b)) i = Fx.maskIfNonZero (Fx.bitAnd (rem i) b) := by
      rw [h.maskIfNonZero, h.bitAnd, h.dup]
    rw [h.selectUsingMask _ _ _ _ (by rw [hm]; exact mask_nonZero _), hm, m]; rfl
  · simp only [if_neg hc]
    exact ⟨_, rfl, fun i => rfl⟩

/-- The clamp. -/
theorem expClamp_sim (hw : w = 16 ∨ w = 32) (h : Lanes O) {ib : Nat} (hib : ib ≤ 36) (a res : Reg n w) :
    ∃ r, Gen.expClamp O ib a res = .ok r ∧
      ∀ i, Fx.expClamp (ib : Int) (a i) (res i) = .ok (r i) := by
  unfold Gen.expClamp Fx.expClamp
  by_cases hc : (ib : Int) > 5
  · simp only [if_pos hc]
    obtain ⟨c, ec⟩ := constant_exists hw (-2 ^ ((36 : Int) - ib).toNat)
    have hk : ¬ ((36 : Int) - ib < 0 ∨ 31 ≤ (36 : Int) - ib) := by omega
    simp only [if_neg hk, ec, ok_bind]
    refine ⟨_, rfl, fun i => ?_⟩
    have hm : O.maskIfLessThan a (O.dup c) i = Fx.maskIfLessThan (a i) c := by
      rw [h.maskIfLessThan, h.dup]
    rw [h.selectUsingMask _ _ _ _ (by rw [hm]; exact mask_lt _ _), hm, h.dup]; rfl
  · simp only [if_neg hc]
    exact ⟨_, rfl, fun i => rfl⟩

/-- The exponential. -/
theorem expNeg_sim (hw : w = 16 ∨ w = 32) (h : Lanes O) {ib : Nat} (hib : ib + 3 ≤ w) (a : Reg n w) :
    ∃ r, Gen.expNeg O ib a = .ok r ∧ ∀ i, Fx.expNeg .wrap (ib : Int) (a i) = .ok (r i) := by
  have hw1 : 1 < w := by omega
  obtain ⟨k, hk⟩ : ∃ k, k = w - 3 - ib := ⟨_, rfl⟩
  have ek : Fx.constantPOT w (ib : Int) (-2) = .ok (BitVec.ofInt w (2 ^ k)) := by
    unfold Fx.constantPOT
    rw [show Fx.fracBits w (ib : Int) + -2 = (k : Int) by unfold Fx.fracBits; omega]
    unfold Fx.oneShl
    rw [if_neg (by omega), Int.toNat_natCast]
  have hp := two_pow_pos' k
  have hple := pow_le_pow' (show k ≤ w - 3 by omega)
  have hple2 : (2 : Int) ^ (w - 3) < 2 ^ (w - 1) := by
    rcases hw with rfl | rfl <;> norm_num
  have ip : InW w (2 ^ k) := by unfold InW; omega
  have i1 : InW w 1 := by unfold InW; omega
  have ip1 : InW w (2 ^ k - 1) := by unfold InW; omega
  unfold Gen.expNeg
  rw [ek, ok_bind]
  dsimp only
  have emask : ∀ i, O.sub (O.dup (BitVec.ofInt w (2 ^ k))) (O.dup 1) i = BitVec.ofInt w (2 ^ k - 1) := fun i => by
    have := h.sub (O.dup (BitVec.ofInt w (2 ^ k))) (O.dup 1) i
    rw [h.dup, h.dup, sub_lane] at this
    rw [← Except.ok.inj this, Int.sub_eq_add_neg, ofInt_add', ofInt_neg', BitVec.sub_eq_add_neg,
      show BitVec.ofInt w 1 = 1 from BitVec.ofInt_natCast w 1]
  have esub : Fx.sub .wrap (BitVec.ofInt w (2 ^ k)) (Fx.dup w 1) = .ok (BitVec.ofInt w (2 ^ k - 1)) := by
    unfold Fx.sub Fx.dup
    rw [toInt_ofIntW (by omega) ip, toInt_ofIntW (by omega) i1, retW_ok ip1]
  generalize O.sub (O.dup (BitVec.ofInt w (2 ^ k))) (O.dup 1) = mask at *
  have eam : ∀ i, Fx.sub .wrap (Fx.bitAnd (a i) (BitVec.ofInt w (2 ^ k - 1))) (BitVec.ofInt w (2 ^ k)) =
      .ok (O.sub (O.bitAnd a mask) (O.dup (BitVec.ofInt w (2 ^ k))) i) := fun i => by
    have := h.sub (O.bitAnd a mask) (O.dup (BitVec.ofInt w (2 ^ k))) i
    rwa [h.dup, h.bitAnd, emask] at this
  have hneg : ∀ i, (O.sub (O.bitAnd a mask) (O.dup (BitVec.ofInt w (2 ^ k))) i).toInt < 0 := fun i => by
    have e := eam i
    have h1 := Fx.toInt_and_mask (w := w) (by omega) (e := k) (by omega) (a i)
    have h2 := Int.emod_nonneg (a i).toInt (show (2 : Int) ^ k ≠ 0 by omega)
    have h3 := Int.emod_lt_of_pos (a i).toInt hp
    unfold Fx.sub at e
    have h1' : (Fx.bitAnd (a i) (BitVec.ofInt w (2 ^ k - 1))).toInt = (a i).toInt % 2 ^ k := h1
    rw [h1', toInt_ofIntW (by omega) ip, retW_ok (by unfold InW; omega)] at e
    rw [← Except.ok.inj e, toInt_ofIntW (by omega) (by unfold InW; omega)]
    omega
  generalize O.sub (O.bitAnd a mask) (O.dup (BitVec.ofInt w (2 ^ k))) = amod at *
  unfold Gen.rescale
  rw [Int.sub_zero]
  obtain ⟨z, ez, hz⟩ := h.srmbp amod ib (by omega) (by omega) (by omega) (by omega)
  have hzn : ∀ i, (z i).toInt < 0 := fun i => by
    have e := hz i
    have hi := hneg i
    rcases Nat.eq_zero_or_pos ib with rfl | h0
    · have : z i = amod i := (Except.ok.inj e).symm
      rwa [this]
    · obtain ⟨r, er, hr⟩ := Fx.C31_multiplyByPOT_pos (w := w) .wrap hw1 ib h0 (by omega) (by omega) (amod i)
      rw [er] at e
      rw [← Except.ok.inj e, hr]
      have hq := two_pow_pos' ib
      have hm : (amod i).toInt * 2 ^ ib < 0 := Int.mul_neg_of_neg_of_pos hi hq
      unfold Spec.clampTo
      have := two_pow_pos' (w - 1)
      split
      · omega
      · split <;> omega
  obtain ⟨r0, e0, h0⟩ := expInterval_sim hw h z hzn
  have erem : ∀ i, Fx.sub .wrap (amod i) (a i) = .ok (O.sub amod a i) := fun i => h.sub _ _ _
  obtain ⟨r1, e1, h1⟩ := expBarrel_sim hw h hib (e := -2) (v := 1672461947) (by omega) (by simp) (O.sub amod a) r0
  obtain ⟨r2, e2, h2⟩ := expBarrel_sim hw h hib (e := -1) (v := 1302514674) (by omega) (by simp) (O.sub amod a) r1
  obtain ⟨r3, e3, h3⟩ := expBarrel_sim hw h hib (e := 0) (v := 790015084) (by omega) (by simp) (O.sub amod a) r2
  obtain ⟨r4, e4, h4⟩ := expBarrel_sim hw h hib (e := 1) (v := 290630308) (by omega) (by simp) (O.sub amod a) r3
  obtain ⟨r5, e5, h5⟩ := expBarrel_sim hw h hib (e := 2) (v := 39332535) (by omega) (by simp) (O.sub amod a) r4
  obtain ⟨r6, e6, h6⟩ := expBarrel_sim hw h hib (e := 3) (v := 720401) (by omega) (by simp) (O.sub amod a) r5
  obtain ⟨r7, e7, h7⟩ := expBarrel_sim hw h hib (e := 4) (v := 242) (by omega) (by simp) (O.sub amod a) r6
  obtain ⟨r8, e8, h8⟩ := expClamp_sim hw h (ib := ib) (by omega) a r7
  have eone : Fx.one w 0 = .ok (Fx.dup w (Fx.maxW w)) := rfl
  rw [ez, ok_bind, e0, ok_bind, e1, ok_bind, e2, ok_bind, e3, ok_bind, e4, ok_bind, e5, ok_bind,
    e6, ok_bind, e7, ok_bind, e8, ok_bind, eone, ok_bind]
  refine ⟨_, rfl, fun i => ?_⟩
  unfold Fx.expNeg
  rw [ek, ok_bind, esub, ok_bind, eam i, ok_bind]
  unfold Fx.rescale
  rw [Int.sub_zero, hz i, ok_bind, h0 i, ok_bind, erem i, ok_bind, h1 i, ok_bind, h2 i, ok_bind, h3 i, ok_bind,
    h4 i, ok_bind, h5 i, ok_bind, h6 i, ok_bind, h7 i, ok_bind, h8 i, ok_bind, eone, ok_bind]
  rw [h.selectUsingMask _ _ _ _ (by rw [h.maskIfZero]; exact mask_zero _), h.maskIfZero, h.dup]
  rfl

/-- Every multiplication agrees with the scalar one. -/
def Full (O : RawOps w (Reg n w)) : Prop := ∀ a b, MulOk O a b

/-- One round of the division. -/
theorem newtonStep_sim (hw : w = 16 ∨ w = 32) (h : Lanes O) (hd x : Reg n w)
    (hh : ∀ i, (hd i).toInt ≠ Fx.minW w) (hx : Full O ∨ ∀ i, (x i).toInt ≠ Fx.minW w) :
    ∃ r, Gen.newtonStep O hd x = .ok r ∧ ∀ i, Fx.newtonStep .wrap (hd i) (x i) = .ok (r i) := by
  obtain ⟨o, eo⟩ : ∃ o : BitVec w, Fx.one w 2 = .ok o := by
    rcases hw with rfl | rfl <;> exact ⟨_, rfl⟩
  have m1 : MulOk O hd x := mulOk_left h hh
  have m2 : MulOk O x (O.sub (O.dup o) (O.srdhm hd x)) := by
    rcases hx with hx | hx
    · exact hx _ _
    · exact mulOk_left h hx
  obtain ⟨y, ey, hy⟩ := h.srmbp (O.srdhm x (O.sub (O.dup o) (O.srdhm hd x))) 2 (by omega) (by omega)
    (by omega) (by omega)
  unfold Gen.newtonStep Gen.rescale
  dsimp only
  rw [eo, ok_bind, show (4 : Int) - 2 = 2 from rfl, ey, ok_bind]
  refine ⟨_, rfl, fun i => ?_⟩
  unfold Fx.newtonStep Fx.rescale
  dsimp only
  have es : Fx.sub .wrap o (Fx.srdhm (hd i) (x i)) = .ok (O.sub (O.dup o) (O.srdhm hd x) i) := by
    have := h.sub (O.dup o) (O.srdhm hd x) i
    rwa [h.dup, m1 i] at this
  rw [eo, ok_bind, es, ok_bind, ← m2 i, show (4 : Int) - 2 = 2 from rfl, hy i, ok_bind, h.add]

/-- The division, given that the intermediate values stay away from the least number. -/
theorem newton_sim (hw : w = 16 ∨ w = 32) (h : Lanes O) (a : Reg n w)
    (ha : ∀ i, (a i).toInt ≠ Fx.minW w)
    (hx : Full O ∨ (w = 32 ∧ ∀ i, 0 ≤ (a i).toInt)) :
    ∃ r, Gen.newton O a = .ok r ∧ ∀ i, Fx.newton .wrap (a i) = .ok (r i) := by
  obtain ⟨c48, e48, -⟩ := constant_factor hw (v := 1515870810) (by simp)
  obtain ⟨c32, e32, h32⟩ := constant_factor hw (v := -1010580540) (by simp)
  have eone : Fx.one w 0 = .ok (Fx.dup w (Fx.maxW w)) := rfl
  have hmax : (Fx.dup w (Fx.maxW w)).toInt = Fx.maxW w := by
    unfold Fx.dup
    have := two_pow_pos' (w - 1)
    exact toInt_ofIntW (by omega) (by unfold InW Fx.maxW; omega)
  have hsum : ∀ i, 0 ≤ (a i).toInt + (Fx.dup w (Fx.maxW w)).toInt := fun i => by
    have h1 := inW_toInt (w := w) (by omega) (a i)
    have h2 := ha i
    rw [hmax]
    unfold InW at h1
    unfold Fx.minW at h2
    unfold Fx.maxW
    omega
  have eh : ∀ i, O.roundingHalfSum a (O.dup (Fx.dup w (Fx.maxW w))) i =
      Fx.roundingHalfSum (a i) (Fx.dup w (Fx.maxW w)) := fun i => by
    rw [h.roundingHalfSum _ _ _ (Or.inl (by rw [h.dup]; exact hsum i)), h.dup]
  have hv : ∀ i, (O.roundingHalfSum a (O.dup (Fx.dup w (Fx.maxW w))) i).toInt =
      ((a i).toInt + 2 ^ (w - 1)) / 2 := fun i => by
    have hs := hsum i
    rw [eh i, rhs_scalar (Or.inl hs)]
    have h1 := inW_toInt (w := w) (by omega) (a i)
    unfold InW at h1
    rw [hmax] at hs ⊢
    unfold Fx.maxW at *
    rw [toInt_ofIntW (by omega) (by unfold InW; omega)]
    congr 1; omega
  have hne : ∀ i, (O.roundingHalfSum a (O.dup (Fx.dup w (Fx.maxW w))) i).toInt ≠ Fx.minW w := fun i => by
    apply ne_min_of_nonneg
    have hs := hsum i
    rw [hv i]
    rw [hmax] at hs
    unfold Fx.maxW at hs
    omega
  unfold Gen.newton
  rw [eone, ok_bind]
  dsimp only
  rw [e48, ok_bind, e32, ok_bind]
  generalize O.roundingHalfSum a (O.dup (Fx.dup w (Fx.maxW w))) = hd at *
  have m0 : MulOk O hd (O.dup c32) := mulOk_right h (fun i => by rw [h.dup]; exact h32)
  have e0 : ∀ i, Fx.add .wrap c48 (Fx.srdhm (hd i) c32) = .ok (O.add (O.dup c48) (O.srdhm hd (O.dup c32)) i) := fun i => by
    have := h.add (O.dup c48) (O.srdhm hd (O.dup c32)) i
    rwa [h.dup, m0 i, h.dup] at this
  generalize O.add (O.dup c48) (O.srdhm hd (O.dup c32)) = x0 at *
  -- the rounds stay near `1 / h`
  have step : ∀ x : Reg n w, (Full O ∨ (w = 32 ∧ ∀ i, 1073741824 ≤ (hd i).toInt ∧ (hd i).toInt < 2147483648 ∧
        |2 ^ 60 - (hd i).toInt * (x i).toInt| ≤ 2 ^ 56)) →
      ∃ r, Gen.newtonStep O hd x = .ok r ∧ (∀ i, Fx.newtonStep .wrap (hd i) (x i) = .ok (r i)) ∧
        (Full O ∨ (w = 32 ∧ ∀ i, 1073741824 ≤ (hd i).toInt ∧ (hd i).toInt < 2147483648 ∧
        |2 ^ 60 - (hd i).toInt * (r i).toInt| ≤ 2 ^ 56)) := by
    intro x hc
    rcases hc with hc | ⟨rfl, hc⟩
    · obtain ⟨r, e, hr⟩ := newtonStep_sim hw h hd x hne (Or.inl hc)
      exact ⟨r, e, hr, Or.inl hc⟩
    · obtain ⟨r, e, hr⟩ := newtonStep_sim hw h hd x hne (Or.inr (fun i => by
        obtain ⟨h1, h2, h3⟩ := hc i
        have := (Fx.near_range h1 h2 h3).1
        exact ne_min_of_nonneg (by omega)))
      refine ⟨r, e, hr, Or.inr ⟨rfl, fun i => ?_⟩⟩
      obtain ⟨h1, h2, h3⟩ := hc i
      refine ⟨h1, h2, ?_⟩
      have hs := hr i
      have hI := Fx.newtonStep_I (m := .wrap) h1 h2 h3
      rw [BitVec.ofInt_toInt, BitVec.ofInt_toInt, hs] at hI
      have hle := Fx.stepI_le (e' := 2 ^ 56) h1 h2 h3 (le_refl _) (by norm_num)
      have hin := Fx.near_range h1 h2 hle
      rw [Except.ok.inj hI, Fx.toI (Fx.in32 (by omega))]
      exact hle
  have c0 : Full O ∨ (w = 32 ∧ ∀ i, 1073741824 ≤ (hd i).toInt ∧ (hd i).toInt < 2147483648 ∧
        |2 ^ 60 - (hd i).toInt * (x0 i).toInt| ≤ 2 ^ 56) := by
    rcases hx with hx | ⟨rfl, hx⟩
    · exact Or.inl hx
    · refine Or.inr ⟨rfl, fun i => ?_⟩
      have h1 := hx i
      have h2 := inW_toInt (w := 32) (by decide) (a i)
      rw [show InW 32 = Fx.In32 from rfl, Fx.in32_iff] at h2
      have h3 := hv i
      norm_num at h3
      have g1 : 1073741824 ≤ (hd i).toInt := by omega
      have g2 : (hd i).toInt < 2147483648 := by omega
      refine ⟨g1, g2, ?_⟩
      have herr := Fx.startI_err g1 g2
      have hin := Fx.near_range g1 g2 herr
      have es := e0 i
      have k1 : Fx.constant 32 1515870810 = .ok (BitVec.ofInt 32 1515870810) := Fx.constant_I (Fx.in32 (by omega))
      have k2 : Fx.constant 32 (-1010580540) = .ok (BitVec.ofInt 32 (-1010580540)) := Fx.constant_I (Fx.in32 (by omega))
      rw [k1] at e48
      rw [k2] at e32
      rw [← Except.ok.inj e48, ← Except.ok.inj e32] at es
      have hsm : Fx.srdhm (hd i) (BitVec.ofInt 32 (-1010580540)) = BitVec.ofInt 32 (Fx.sm (hd i).toInt (-1010580540)) := by
        have := Fx.srdhm_I (a := (hd i).toInt) (b := -1010580540) (Fx.in32 (by omega)) (Fx.in32 (by omega)) (by omega)
        rwa [BitVec.ofInt_toInt] at this
      unfold Fx.startI at hin herr
      have hb : Fx.In32 (Fx.sm (hd i).toInt (-1010580540)) := Fx.in32 (by omega)
      rw [hsm, Fx.add_I (Fx.in32 (by omega)) hb (Fx.in32 (by omega))] at es
      rw [← Except.ok.inj es, Fx.toI (Fx.in32 (by omega))]
      exact herr
  obtain ⟨x1, e1, h1, c1⟩ := step x0 c0
  obtain ⟨x2, e2, h2, c2⟩ := step x1 c1
  obtain ⟨x3, e3, h3, c3⟩ := step x2 c2
  rw [e1, ok_bind, e2, ok_bind, e3]
  refine ⟨x3, rfl, fun i => ?_⟩
  unfold Fx.newton
  rw [eone, ok_bind]
  dsimp only
  rw [e48, ok_bind, e32, ok_bind, ← eh i, e0 i, ok_bind, h1 i, ok_bind, h2 i, ok_bind, h3 i]

theorem oneOver_sim (hw : w = 16 ∨ w = 32) (h : Lanes O) (a : Reg n w)
    (ha : ∀ i, (a i).toInt ≠ Fx.minW w) (hx : Full O ∨ (w = 32 ∧ ∀ i, 0 ≤ (a i).toInt)) :
    ∃ r, Gen.oneOver O a = .ok r ∧ ∀ i, Fx.oneOver .wrap (a i) = .ok (r i) := by
  obtain ⟨x, ex, hx⟩ := newton_sim hw h a ha hx
  obtain ⟨y, ey, hy⟩ := h.srmbp x 1 (by omega) (by omega) (by omega) (by omega)
  unfold Gen.oneOver Gen.rescale
  rw [ex, ok_bind, show (1 : Int) - 0 = 1 from rfl, ey]
  refine ⟨y, rfl, fun i => ?_⟩
  unfold Fx.oneOver Fx.rescale
  rw [hx i, ok_bind, show (1 : Int) - 0 = 1 from rfl, hy i]

theorem oneMinusOver_sim (hw : w = 16 ∨ w = 32) (h : Lanes O) (a : Reg n w)
    (ha : ∀ i, (a i).toInt ≠ Fx.minW w) (hx : Full O ∨ (w = 32 ∧ ∀ i, 0 ≤ (a i).toInt)) :
    ∃ r, Gen.oneMinusOver O a = .ok r ∧ ∀ i, Fx.oneMinusOver .wrap (a i) = .ok (r i) := by
  obtain ⟨x, ex, hx⟩ := newton_sim hw h a ha hx
  obtain ⟨o, eo⟩ : ∃ o : BitVec w, Fx.one w 2 = .ok o := by
    rcases hw with rfl | rfl <;> exact ⟨_, rfl⟩
  obtain ⟨y, ey, hy⟩ := h.srmbp (O.sub x (O.dup o)) 2 (by omega) (by omega) (by omega) (by omega)
  unfold Gen.oneMinusOver Gen.rescale
  rw [ex, ok_bind, eo, ok_bind]
  dsimp only
  rw [show (2 : Int) - 0 = 2 from rfl, ey]
  refine ⟨y, rfl, fun i => ?_⟩
  unfold Fx.oneMinusOver Fx.rescale
  have es : Fx.sub .wrap (x i) o = .ok (O.sub x (O.dup o) i) := by
    have := h.sub x (O.dup o) i
    rwa [h.dup] at this
  rw [hx i, ok_bind, eo, ok_bind, es, ok_bind, show (2 : Int) - 0 = 2 from rfl, hy i]

/-- The negation of a register, in one lane. -/
theorem neg_value (hw : 1 < w) (a : BitVec w) :
    (-a).toInt = -a.toInt ∨ (a.toInt = Fx.minW w ∧ (-a).toInt = Fx.minW w) := by
  have h1 := inW_toInt (w := w) (by omega) a
  have hp := two_pow_pos' (w - 1)
  by_cases h : a.toInt = Fx.minW w
  · right
    refine ⟨h, ?_⟩
    rw [BitVec.toInt_neg, h]
    have e : (2 : Int) ^ w = 2 * 2 ^ (w - 1) := by
      rw [Int.mul_comm, ← Int.pow_succ]; congr 1; omega
    have e' : ((2 ^ w : Nat) : Int) = 2 * 2 ^ (w - 1) := by rw [← e]; norm_cast
    unfold Fx.minW
    rw [Int.neg_neg, Int.bmod_def, e', Int.emod_eq_of_lt (by omega) (by omega), if_neg (by omega)]
    omega
  · left
    have e : -a = BitVec.ofInt w (-a.toInt) := by rw [ofInt_neg', BitVec.ofInt_toInt]
    rw [e]
    unfold Fx.minW InW at *
    exact toInt_ofIntW (by omega) (by unfold InW; omega)

/-- The scalar exponential of a nonpositive number is not negative. -/
def ExpNonneg (w : Nat) : Prop :=
  ∀ ib : Nat, ib + 3 ≤ w → ∀ x : BitVec w, x.toInt ≤ 0 →
    ∀ r, Fx.expNeg .wrap (ib : Int) x = .ok r → 0 ≤ r.toInt

theorem expNonneg32 : ExpNonneg 32 := by
  intro ib hib x hx r hr
  obtain ⟨r', e, h, -⟩ := Fx.C36_exp .wrap ib (by omega) x hx
  rw [hr] at e
  rw [Except.ok.inj e]; exact h

theorem select_lane (h : Lanes O) {m a b : Reg n w} {i : Fin n} {m' : BitVec w} (e : m i = m')
    (hm : IsMask m') : O.selectUsingMask m a b i = Fx.selectUsingMask m' (a i) (b i) := by
  rw [h.selectUsingMask _ _ _ _ (by rw [e]; exact hm), e]

/-- The logistic function. -/
theorem logistic_sim (hw : w = 16 ∨ w = 32) (h : Lanes O) (hE : ExpNonneg w) (hF : Full O ∨ w = 32)
    {ib : Nat} (hib : ib + 3 ≤ w) (a : Reg n w) :
    ∃ r, Gen.logistic O ib a = .ok r ∧ ∀ i, Fx.logistic .wrap (ib : Int) (a i) = .ok (r i) := by
  have hw1 : 1 < w := by omega
  obtain ⟨half, ehalf⟩ := constant_exists hw (2 ^ 30)
  have eone : Fx.one w 0 = .ok (Fx.dup w (Fx.maxW w)) := rfl
  have em : ∀ i, O.maskIfGreaterThan a (O.dup 0) i = Fx.maskIfGreaterThan (a i) (Fx.dup w 0) := fun i => by
    rw [h.maskIfGreaterThan, h.dup]; rfl
  have eabs : ∀ i, O.selectUsingMask (O.maskIfGreaterThan a (O.dup 0)) a (O.neg a) i =
      Fx.selectUsingMask (Fx.maskIfGreaterThan (a i) (Fx.dup w 0)) (a i) (O.neg a i) := fun i =>
    select_lane h (em i) (mask_gt _ _)
  have eneg : ∀ b : Reg n w, ∀ i, O.neg b i = -(b i) := fun b i => by
    have := h.neg b i
    rw [neg_lane] at this
    exact (Except.ok.inj this).symm
  obtain ⟨ab, hab⟩ : ∃ ab, ab = O.selectUsingMask (O.maskIfGreaterThan a (O.dup 0)) a (O.neg a) := ⟨_, rfl⟩
  have hnp : ∀ i, (O.neg ab i).toInt ≤ 0 := fun i => by
    rw [eneg, hab, eabs, Fx.maskGT_eq (by omega), eneg]
    have hz : (Fx.dup w 0).toInt = 0 := by unfold Fx.dup; have := two_pow_pos' (w - 1); exact toInt_ofIntW (by omega) (by unfold InW; omega)
    have hmin : Fx.minW w < 0 := by unfold Fx.minW; have := two_pow_pos' (w - 1); omega
    rw [hz]
    by_cases hp : 0 < (a i).toInt
    · rw [if_pos hp, Fx.select_allOnes]
      rcases neg_value hw1 (a i) with h1 | h1 <;> omega
    · rw [if_neg hp, Fx.select_zero, BitVec.neg_neg]; omega
  obtain ⟨e, ee, he⟩ := expNeg_sim hw h hib (O.neg ab)
  have he0 : ∀ i, 0 ≤ (e i).toInt := fun i => hE ib hib _ (hnp i) _ (he i)
  obtain ⟨rp, erp, hrp⟩ := oneOver_sim hw h e (fun i => ne_min_of_nonneg (he0 i))
    (hF.imp id (fun hh => ⟨hh, he0⟩))
  have eG : Gen.logisticPos O ib ab = .ok rp := by
    unfold Gen.logisticPos
    rw [ee, ok_bind, erp]
  have eF : ∀ i, Fx.logisticPos .wrap (ib : Int) (ab i) = .ok (rp i) := fun i => by
    unfold Fx.logisticPos
    rw [h.neg, ok_bind, he i, ok_bind, hrp i]
  unfold Gen.logistic
  dsimp only
  rw [← hab, eG, ok_bind, eone, ok_bind, ehalf, ok_bind]
  refine ⟨_, rfl, fun i => ?_⟩
  unfold Fx.logistic
  dsimp only
  have hab' : Fx.selectUsingMask (Fx.maskIfGreaterThan (a i) (Fx.dup w 0)) (a i) (O.neg a i) = ab i := by
    rw [hab, eabs]
  have es : Fx.sub .wrap (Fx.dup w (Fx.maxW w)) (rp i) = .ok (O.sub (O.dup (Fx.dup w (Fx.maxW w))) rp i) := by
    have := h.sub (O.dup (Fx.dup w (Fx.maxW w))) rp i
    rwa [h.dup] at this
  rw [h.neg, ok_bind, hab', eF i, ok_bind, eone, ok_bind, es, ok_bind, ehalf, ok_bind]
  rw [select_lane h (h.maskIfZero a i) (mask_zero _), h.dup, select_lane h (em i) (mask_gt _ _)]
  rfl

/-- The hyperbolic tangent. -/
theorem tanh_sim (hw : w = 16 ∨ w = 32) (h : Lanes O) (hE : ExpNonneg w) (hF : Full O ∨ w = 32)
    {ib : Nat} (hib : ib + 4 ≤ w) (a : Reg n w) :
    ∃ r, Gen.tanh O ib a = .ok r ∧ ∀ i, Fx.tanh .wrap (ib : Int) (a i) = .ok (r i) := by
  have hw1 : 1 < w := by omega
  have em : ∀ i, O.maskIfLessThan a (O.dup 0) i = Fx.maskIfLessThan (a i) (Fx.dup w 0) := fun i => by
    rw [h.maskIfLessThan, h.dup]; rfl
  have eabs : ∀ i, O.selectUsingMask (O.maskIfLessThan a (O.dup 0)) a (O.neg a) i =
      Fx.selectUsingMask (Fx.maskIfLessThan (a i) (Fx.dup w 0)) (a i) (O.neg a i) := fun i =>
    select_lane h (em i) (mask_lt _ _)
  have eneg : ∀ b : Reg n w, ∀ i, O.neg b i = -(b i) := fun b i => by
    have := h.neg b i
    rw [neg_lane] at this
    exact (Except.ok.inj this).symm
  obtain ⟨ab, hab⟩ : ∃ ab, ab = O.selectUsingMask (O.maskIfLessThan a (O.dup 0)) a (O.neg a) := ⟨_, rfl⟩
  have hnp : ∀ i, (ab i).toInt ≤ 0 := fun i => by
    rw [hab, eabs, Fx.maskLT_eq (by omega), eneg]
    have hz : (Fx.dup w 0).toInt = 0 := by unfold Fx.dup; have := two_pow_pos' (w - 1); exact toInt_ofIntW (by omega) (by unfold InW; omega)
    have hmin : Fx.minW w < 0 := by unfold Fx.minW; have := two_pow_pos' (w - 1); omega
    rw [hz]
    by_cases hp : (a i).toInt < 0
    · rw [if_pos hp, Fx.select_allOnes]; omega
    · rw [if_neg hp, Fx.select_zero]
      rcases neg_value hw1 (a i) with h1 | h1 <;> omega
  obtain ⟨e, ee, he⟩ := expNeg_sim hw h (ib := ib + 1) (by omega) ab
  have he0 : ∀ i, 0 ≤ (e i).toInt := fun i => hE (ib + 1) (by omega) _ (hnp i) _ (he i)
  obtain ⟨rp, erp, hrp⟩ := oneMinusOver_sim hw h e (fun i => ne_min_of_nonneg (he0 i))
    (hF.imp id (fun hh => ⟨hh, he0⟩))
  rw [Int.natCast_add] at ee
  simp only [Int.natCast_add] at he
  have eG : Gen.negTanh O ib ab = .ok rp := by
    unfold Gen.negTanh
    rw [show (ib : Int) + 1 = (ib : Int) + ((1 : Nat) : Int) from rfl, ee, ok_bind, erp]
  have eF : ∀ i, Fx.negTanh .wrap (ib : Int) (ab i) = .ok (rp i) := fun i => by
    unfold Fx.negTanh
    rw [show (ib : Int) + 1 = (ib : Int) + ((1 : Nat) : Int) from rfl, he i, ok_bind, hrp i]
  unfold Gen.tanh
  dsimp only
  rw [← hab, eG, ok_bind]
  refine ⟨_, rfl, fun i => ?_⟩
  unfold Fx.tanh
  dsimp only
  have hab' : Fx.selectUsingMask (Fx.maskIfLessThan (a i) (Fx.dup w 0)) (a i) (O.neg a i) = ab i := by
    rw [hab, eabs]
  rw [h.neg, ok_bind, hab', eF i, ok_bind, h.neg, ok_bind]
  rw [select_lane h (h.maskIfZero a i) (mask_zero _), h.dup, select_lane h (em i) (mask_lt _ _)]
  rfl

end Gemmlowp.Simd
