import Verif.TransProof16
/-!
# logistic and tanh on 16-bit raw values, as functions on integers
-/
namespace Gemmlowp.Fx16
open Gemmlowp.Fx

/-- `1 / (1 + a)` for `a` in `[0, 1)`. -/
def oneOverI (a : Int) : Int := sat (newtonI ((a + 32768) / 2) * 2)

/-- `(1 - a) / (1 + a)` for `a` in `[0, 1)`. -/
def oneMinusOverI (a : Int) : Int := sat ((newtonI ((a + 32768) / 2) - 8192) * 4)

theorem sat_cases (x : Int) : sat x = if x < -32768 then -32768 else if x > 32767 then 32767 else x := by
  unfold sat Spec.clampTo; rfl

theorem oneOver_I {m : OvMode} {a : Int} (h0 : 0 ≤ a) (h1 : a < 32768) :
    oneOver m (BitVec.ofInt 16 a) = .ok (BitVec.ofInt 16 (oneOverI a)) ∧
      16380 ≤ oneOverI a ∧ oneOverI a ≤ 32767 ∧ (a ≤ 32761 → 16384 ≤ oneOverI a) ∧
      (a ≤ 32753 → 16384 < oneOverI a) := by
  obtain ⟨x, e, ex, r1, r2, -, -, g1, g2⟩ := newton_I (m := m) h0 h1
  unfold oneOver oneOverI
  rw [e, ok_bind, ex]
  unfold rescale
  rw [show (1 : Int) - 0 = ((1 : Nat) : Int) from rfl, srmbp_pos_I (by decide) (in16 (by omega))]
  refine ⟨by norm_num, ?_⟩
  rw [sat_cases, if_neg (by omega)]
  split
  · omega
  · refine ⟨by omega, by omega, fun h => ?_, fun h => ?_⟩
    · have := g1 h; omega
    · have := g2 h; omega

theorem oneMinusOver_I {m : OvMode} {a : Int} (h0 : 0 ≤ a) (h1 : a < 32768) :
    oneMinusOver m (BitVec.ofInt 16 a) = .ok (BitVec.ofInt 16 (oneMinusOverI a)) ∧
      -8 ≤ oneMinusOverI a ∧ oneMinusOverI a ≤ 32767 ∧ (a ≤ 32761 → 0 ≤ oneMinusOverI a) ∧
      (a ≤ 32753 → 0 < oneMinusOverI a) := by
  obtain ⟨x, e, ex, r1, r2, -, -, g1, g2⟩ := newton_I (m := m) h0 h1
  unfold oneMinusOver oneMinusOverI
  rw [e, ok_bind, ex, one2_I, ok_bind, sub_I (in16 (by omega)) (in16 (by omega)) (in16 (by omega)), ok_bind]
  unfold rescale
  rw [show (2 : Int) - 0 = ((2 : Nat) : Int) from rfl, srmbp_pos_I (by decide) (in16 (by omega))]
  refine ⟨by norm_num, ?_⟩
  rw [sat_cases, if_neg (by omega)]
  split
  · omega
  · refine ⟨by omega, by omega, fun h => ?_, fun h => ?_⟩
    · have := g1 h; omega
    · have := g2 h; omega

/-! ## logistic and tanh -/

/-- The logistic function for positive arguments. -/
def logisticPosI (ib : Nat) (a : Int) : Int := oneOverI (expN ib (-a))

/-- The logistic function. -/
def logisticI (ib : Nat) (a : Int) : Int :=
  if a = 0 then 16384 else if 0 < a then logisticPosI ib a else 32767 - logisticPosI ib (-a)

/-- The hyperbolic tangent. -/
def tanhI (ib : Nat) (a : Int) : Int :=
  if a = 0 then 0 else if a < 0 then -oneMinusOverI (expN (ib + 1) a)
    else oneMinusOverI (expN (ib + 1) (-a))

theorem neg_min : neg .wrap (BitVec.ofInt 16 (-32768)) = .ok (BitVec.ofInt 16 (-32768)) := by
  decide

theorem logisticPos_I {m : OvMode} {ib : Nat} (hib : ib ≤ 13) {a : Int} (h0 : 0 ≤ a)
    (h1 : a < 32768) :
    logisticPos m ib (BitVec.ofInt 16 a) = .ok (BitVec.ofInt 16 (logisticPosI ib a)) := by
  obtain ⟨e, b1, b2, -⟩ := expNeg_I (m := m) hib (a := -a) (in16 (by omega)) (by omega)
  unfold logisticPos logisticPosI
  rw [neg_I (in16 (by omega)) (in16 (by omega)), ok_bind, e, ok_bind]
  exact (oneOver_I (m := m) b1 (by omega)).1

theorem logisticPos_min {ib : Nat} (hib : ib ≤ 13) :
    logisticPos .wrap ib (BitVec.ofInt 16 (-32768)) =
      .ok (BitVec.ofInt 16 (logisticPosI ib 32768)) := by
  obtain ⟨e, b1, b2, -⟩ := expNeg_I (m := .wrap) hib (a := -32768) (in16 (by omega)) (by omega)
  unfold logisticPos logisticPosI
  rw [neg_min, ok_bind, e, ok_bind]
  exact (oneOver_I (m := .wrap) b1 (by omega)).1

theorem logisticPosI_bounds {ib : Nat} (hib : ib ≤ 13) {a : Int} (h0 : 0 ≤ a) (h1 : a ≤ 32768) :
    16380 ≤ logisticPosI ib a ∧ logisticPosI ib a ≤ 32767 ∧ (0 < a → 3 ≤ ib → 16384 ≤ logisticPosI ib a) ∧
      (0 < a → 4 ≤ ib → 16384 < logisticPosI ib a) := by
  obtain ⟨e, b1, b2, b3⟩ := expNeg_I (m := .wrap) hib (a := -a) (in16 (by omega)) (by omega)
  obtain ⟨-, c1, c2, c3, c4⟩ := oneOver_I (m := .wrap) b1 (by omega)
  refine ⟨c1, c2, fun ha hi => c3 ?_, fun ha hi => c4 ?_⟩
  · have := b3 (by omega)
    unfold expTop at this
    split at this
    · omega
    · omega
  · have := b3 (by omega)
    unfold expTop at this
    rw [if_pos hi] at this; omega

theorem half_I : constant 16 (2 ^ 30) = .ok (BitVec.ofInt 16 16384) :=
  constants16.2.2.2.2.2.2.2.2.2.2.2

theorem logistic_I {m : OvMode} {ib : Nat} (hib : ib ≤ 13) {a : Int} (ha : In16 a)
    (h0 : m = .wrap ∨ -32768 < a) :
    logistic m ib (BitVec.ofInt 16 a) = .ok (BitVec.ofInt 16 (logisticI ib a)) := by
  have ha' := (in16_iff a).1 ha
  unfold logistic logisticI
  dsimp only
  have hm : maskIfGreaterThan (BitVec.ofInt 16 a) (dup 16 0) =
      if 0 < a then BitVec.allOnes 16 else 0 := by
    rw [(C33_masks (by decide) (BitVec.ofInt 16 a) (dup 16 0)).2.2.2.2.1, toI ha, dup_I, toI (in16 (by omega))]
  have hz : maskIfZero (BitVec.ofInt 16 a) = if a = 0 then BitVec.allOnes 16 else 0 := by
    rw [(C33_masks (by decide) (BitVec.ofInt 16 a) 0).2.1, toI ha]
  rw [hm, hz]
  simp only [select_I]
  rw [one0_I, half_I]
  by_cases hmin : a = -32768
  · subst hmin
    have hw : m = .wrap := by rcases h0 with h | h; exact h; omega
    subst hw
    have b := logisticPosI_bounds hib (a := 32768) (by omega) (by omega)
    rw [neg_min, ok_bind, if_neg (by omega), logisticPos_min hib, ok_bind, ok_bind,
      sub_I (in16 (by omega)) (in16 (by omega)) (in16 (by omega)), ok_bind, ok_bind,
      if_neg (by omega), if_neg (by omega), if_neg (by omega), if_neg (by omega)]
    rfl
  rw [neg_I ha (in16 (by omega)), ok_bind]
  by_cases hp : 0 < a
  · obtain ⟨b1, b2, -⟩ := logisticPosI_bounds hib (a := a) (by omega) (by omega)
    rw [if_pos hp, logisticPos_I hib (by omega) (by omega), ok_bind, ok_bind,
      sub_I (in16 (by omega)) (in16 (by omega)) (in16 (by omega)),
      ok_bind, ok_bind, if_neg (by omega), if_pos hp, if_neg (by omega), if_pos hp]
    rfl
  · obtain ⟨b1, b2, -⟩ := logisticPosI_bounds hib (a := -a) (by omega) (by omega)
    rw [if_neg hp, logisticPos_I hib (by omega) (by omega), ok_bind, ok_bind,
      sub_I (in16 (by omega)) (in16 (by omega)) (in16 (by omega)),
      ok_bind, ok_bind, if_neg hp, if_neg hp]
    by_cases hz : a = 0
    · rw [if_pos hz, if_pos hz]; rfl
    · rw [if_neg hz, if_neg hz]; rfl

theorem logisticI_bounds {ib : Nat} (hib : ib ≤ 13) {v : Int} (hin : In16 v) :
    0 ≤ logisticI ib v ∧ logisticI ib v ≤ 32767 ∧
      (4 ≤ ib → (0 < v → 16384 < logisticI ib v) ∧ (v < 0 → logisticI ib v < 16384 - 1)) ∧
      (3 ≤ ib → (0 < v → 16384 ≤ logisticI ib v) ∧ (v < 0 → logisticI ib v < 16384)) := by
  have h' := (in16_iff v).1 hin
  unfold logisticI
  by_cases hz : v = 0
  · rw [if_pos hz]; omega
  rw [if_neg hz]
  by_cases hp : 0 < v
  · rw [if_pos hp]
    obtain ⟨b1, b2, b3, b4⟩ := logisticPosI_bounds hib (a := v) (by omega) (by omega)
    refine ⟨by omega, b2, fun h => ⟨fun _ => b4 hp h, fun hn => by omega⟩, fun h => ⟨fun _ => b3 hp h, fun hn => by omega⟩⟩
  · rw [if_neg hp]
    obtain ⟨b1, b2, b3, b4⟩ := logisticPosI_bounds hib (a := -v) (by omega) (by omega)
    refine ⟨by omega, by omega, fun h => ⟨fun hn => by omega, fun _ => ?_⟩, fun h => ⟨fun hn => by omega, fun _ => ?_⟩⟩
    · have := b4 (by omega) h; omega
    · have := b3 (by omega) h; omega

theorem negTanh_I {m : OvMode} {ib : Nat} (hib : ib ≤ 12) {a : Int} (h0 : -32768 ≤ a)
    (h1 : a ≤ 0) :
    negTanh m ib (BitVec.ofInt 16 a) = .ok (BitVec.ofInt 16 (oneMinusOverI (expN (ib + 1) a))) ∧
      -8 ≤ oneMinusOverI (expN (ib + 1) a) ∧ oneMinusOverI (expN (ib + 1) a) ≤ 32767 ∧
      (a < 0 → 2 ≤ ib → 0 ≤ oneMinusOverI (expN (ib + 1) a)) ∧
      (a < 0 → 3 ≤ ib → 1 ≤ oneMinusOverI (expN (ib + 1) a)) := by
  obtain ⟨e, b1, b2, b3⟩ := expNeg_I (m := m) (ib := ib + 1) (by omega) (a := a) (in16 (by omega)) (by omega)
  obtain ⟨o, c1, c2, c3, c4⟩ := oneMinusOver_I (m := m) b1 (by omega)
  unfold negTanh
  rw [show (ib : Int) + 1 = ((ib + 1 : Nat) : Int) from rfl, e, ok_bind]
  refine ⟨o, c1, c2, fun h hi => c3 ?_, fun h hi => c4 ?_⟩
  · have := b3 h
    unfold expTop at this
    split at this
    · omega
    · rw [if_pos (by omega)] at this; omega
  · have := b3 h
    unfold expTop at this
    rw [if_pos (by omega)] at this; omega

theorem tanh_I {m : OvMode} {ib : Nat} (hib : ib ≤ 12) {a : Int} (ha : In16 a)
    (h0 : m = .wrap ∨ -32768 < a) :
    tanh m ib (BitVec.ofInt 16 a) = .ok (BitVec.ofInt 16 (tanhI ib a)) := by
  have ha' := (in16_iff a).1 ha
  unfold tanh tanhI
  dsimp only
  have hm : maskIfLessThan (BitVec.ofInt 16 a) (dup 16 0) =
      if a < 0 then BitVec.allOnes 16 else 0 := by
    rw [(C33_masks (by decide) (BitVec.ofInt 16 a) (dup 16 0)).2.2.2.2.2.2.1, toI ha, dup_I, toI (in16 (by omega))]
  have hz : maskIfZero (BitVec.ofInt 16 a) = if a = 0 then BitVec.allOnes 16 else 0 := by
    rw [(C33_masks (by decide) (BitVec.ofInt 16 a) 0).2.1, toI ha]
  rw [hm, hz]
  simp only [select_I]
  have hn : ∃ na, neg m (BitVec.ofInt 16 a) = .ok na ∧ (0 ≤ a → na = BitVec.ofInt 16 (-a)) := by
    by_cases hmin : a = -32768
    · subst hmin
      have hw : m = .wrap := by rcases h0 with h | h; exact h; omega
      subst hw
      exact ⟨_, neg_min, fun h => by omega⟩
    · exact ⟨_, neg_I ha (in16 (by omega)), fun _ => rfl⟩
  obtain ⟨na, hn1, hn2⟩ := hn
  rw [hn1, ok_bind]
  by_cases hp : a < 0
  · obtain ⟨e, c1, c2, -⟩ := negTanh_I (m := m) hib (a := a) (by omega) (by omega)
    rw [if_pos hp, e, ok_bind, neg_I (in16 (by omega)) (in16 (by omega)), ok_bind,
      if_neg (by omega), if_pos hp, if_neg (by omega), if_pos hp]
    rfl
  · obtain ⟨e, c1, c2, -⟩ := negTanh_I (m := m) hib (a := -a) (by omega) (by omega)
    rw [if_neg hp, hn2 (by omega), e, ok_bind, neg_I (in16 (by omega)) (in16 (by omega)), ok_bind,
      if_neg hp, if_neg hp]
    by_cases hz : a = 0
    · rw [if_pos hz, if_pos hz]; rfl
    · rw [if_neg hz, if_neg hz]; rfl

theorem tanhI_bounds {ib : Nat} (hib : ib ≤ 12) {v : Int} (hin : In16 v) :
    -32767 ≤ tanhI ib v ∧ tanhI ib v ≤ 32767 ∧
      (3 ≤ ib → (0 < v → 0 < tanhI ib v) ∧ (v < 0 → tanhI ib v < 0)) ∧
      (2 ≤ ib → (0 < v → 0 ≤ tanhI ib v) ∧ (v < 0 → tanhI ib v ≤ 0)) := by
  have h' := (in16_iff v).1 hin
  unfold tanhI
  by_cases hz : v = 0
  · rw [if_pos hz]; omega
  rw [if_neg hz]
  by_cases hp : v < 0
  · rw [if_pos hp]
    obtain ⟨-, b1, b2, b3, b4⟩ := negTanh_I (m := .wrap) hib (a := v) (by omega) (by omega)
    refine ⟨by omega, by omega, fun h => ⟨fun hn => by omega, fun _ => ?_⟩, fun h => ⟨fun hn => by omega, fun _ => ?_⟩⟩
    · have := b4 hp h; omega
    · have := b3 hp h; omega
  · rw [if_neg hp]
    obtain ⟨-, b1, b2, b3, b4⟩ := negTanh_I (m := .wrap) hib (a := -v) (by omega) (by omega)
    refine ⟨by omega, by omega, fun h => ⟨fun _ => ?_, fun hn => by omega⟩, fun h => ⟨fun _ => ?_, fun hn => by omega⟩⟩
    · have := b4 (by omega) h; omega
    · have := b3 (by omega) h; omega

end Gemmlowp.Fx16
