import Mathlib.Tactic.NormNum
import Mathlib.Tactic.Ring
import Mathlib.Tactic.Linarith
import Verif.OutputSpec
import Verif.OutputProof
import Verif.PropsFixed
/-!
# Properties C23 - C28: output stages and pipelines
-/
namespace Gemmlowp

open Fx

theorem inW32 {x : Int} : InW 32 x ↔ InI32 x := by
  unfold InW InI32
  norm_num
  omega

theorem fxAdd_ok {m : OvMode} {x y : BitVec 32} (h : InI32 (x.toInt + y.toInt)) :
    Fx.add m x y = .ok (BitVec.ofInt 32 (x.toInt + y.toInt)) := retW_ok (inW32.2 h)

theorem fxMul_ok {m : OvMode} {x y : BitVec 32} (h : InI32 (x.toInt * y.toInt)) :
    Fx.mul m x y = .ok (BitVec.ofInt 32 (x.toInt * y.toInt)) := retW_ok (inW32.2 h)

theorem rdpot32 {m : OvMode} {x : BitVec 32} {s q : Int} (h0 : 0 ≤ s) (h1 : s ≤ 31)
    (h : Spec.NearestAway x.toInt (2 ^ s.toNat) q) :
    rdpot m x s = .ok (BitVec.ofInt 32 q) := by
  obtain ⟨q', e1, e2⟩ := rdpot_ok (m := m) (w := 32) (by omega) (e := s.toNat) (by omega) (by omega) x
  rw [Int.toNat_of_nonneg h0] at e1
  rw [e1]
  have := h.unique e2
  rw [this, BitVec.ofInt_toInt]

theorem srdhm32 {x mu : BitVec 32} {h : Int} (hh : Spec.HighMul x.toInt mu.toInt h) :
    (srdhm x mu).toInt = h := by
  have := C29_srdhm (w := 32) (by omega) x mu
  norm_num at this
  unfold Spec.HighMul at hh
  split at this <;> rename_i hc
  · rw [if_pos hc] at hh; omega
  · rw [if_neg hc] at hh
    exact this.unique hh

theorem quantizeDownReg_ok {m : OvMode} {o mu sh x : BitVec 32} {y : Int}
    (h : Spec.QuantizeDown o.toInt mu.toInt sh.toInt x.toInt y) :
    quantizeDownReg m o mu sh x = .ok (BitVec.ofInt 32 y) := by
  obtain ⟨h1, h2, h3, h4, h5⟩ := h
  unfold quantizeDownReg
  rw [fxAdd_ok h3, ok_bind]
  have e1 := toInt_ofInt32 h3
  rw [fxMul_ok (by rw [e1]; exact h4), ok_bind, e1]
  exact rdpot32 h1 h2 (by rw [toInt_ofInt32 h4]; exact h5)

theorem byFixedPointReg_ok {m : OvMode} {mu sh o x : BitVec 32} {y : Int}
    (h : Spec.ByFixedPoint mu.toInt sh.toInt o.toInt x.toInt y) :
    byFixedPointReg m mu sh o x = .ok (BitVec.ofInt 32 y) := by
  obtain ⟨h1, h2, h3, hh, h4, h5⟩ := h
  unfold byFixedPointReg
  have e1 := srdhm32 h4
  obtain ⟨q', q1, q2⟩ := rdpot_ok (m := m) (w := 32) (by omega) (e := sh.toInt.toNat) (by omega)
    (by omega) (srdhm x mu)
  rw [Int.toNat_of_nonneg h1] at q1
  rw [e1] at q2
  have e2 := q2.unique h5
  rw [q1, ok_bind, fxAdd_ok (by rw [e2]; simpa using h3), e2]
  congr 2; omega

theorem max32_zero (e : BitVec 32) : (max32 e 0).toInt = max 0 e.toInt := by
  rw [max32_toInt]
  have : (0 : BitVec 32).toInt = 0 := rfl
  omega

theorem byExponentReg_ok {m : OvMode} {mu o x : BitVec 32} {e y l r : Int}
    (h : Spec.ByExponent mu.toInt e o.toInt x.toInt y) (hl : l = max 0 e) (hr : r = max 0 (-e)) :
    byExponentReg m l r mu o x = .ok (BitVec.ofInt 32 y) := by
  unfold byExponentReg
  unfold Spec.ByExponent at h
  have key : ∀ (x' : BitVec 32) (s : Int), Spec.ByFixedPoint mu.toInt s o.toInt x'.toInt y →
      (do
        let q ← rdpot m (srdhm x' mu) s
        Fx.add m q o) = .ok (BitVec.ofInt 32 y) := by
    intro x' s hs
    have hs1 := hs.1
    have hs2 := hs.2.1
    have := byFixedPointReg_ok (m := m) (mu := mu) (o := o) (x := x') (y := y) (sh := BitVec.ofInt 32 s)
      (by rw [toInt_ofInt32 (by unfold InI32; omega)]; exact hs)
    unfold byFixedPointReg at this
    rwa [toInt_ofInt32 (by unfold InI32; omega)] at this
  split at h <;> rename_i he
  · obtain ⟨h1, h2⟩ := h
    obtain ⟨r', e1, e2⟩ := C39_shiftLeft_partial (w := 32) (by omega) e.toNat (by omega) x
    have hle : l = ((e.toNat : Nat) : Int) := by omega
    rw [hle, e1, ok_bind, hr, show max 0 (-e) = 0 by omega]
    apply key
    rw [e2]
    norm_num
    exact h2
  · obtain ⟨r', e1, e2⟩ := C39_shiftLeft_partial (w := 32) (by omega) 0 (by omega) x
    have hx : r' = x := by
      apply BitVec.eq_of_toInt_eq
      rw [e2]
      have := inI32_toInt x
      unfold InI32 at this
      unfold Spec.clampTo
      norm_num
      omega
    rw [hl, show max 0 e = ((0 : Nat) : Int) by omega, e1, ok_bind, hx, hr,
      show max 0 (-e) = -e by omega]
    exact key x (-e) h

theorem elem_read {a : VMap} {sh : VectorShape} {r c : Nat} {v : BitVec 32} (h : a.Elem sh r c v) :
    (a.vec sh).read (posOf sh r c) = .ok v := by
  cases sh <;> simp only [VMap.Elem] at h <;> simp only [VMap.vec, OffsetVec.read, posOf, h]

theorem neg_ok {m : OvMode} {e : BitVec 32} (h : -31 ≤ e.toInt) :
    Fx.neg m e = .ok (BitVec.ofInt 32 (-e.toInt)) ∧ (BitVec.ofInt 32 (-e.toInt)).toInt = -e.toInt := by
  have he := inI32_toInt e
  have : InI32 (-e.toInt) := by unfold InI32 at he ⊢; omega
  exact ⟨retW_ok (inW32.2 this), toInt_ofInt32 this⟩

theorem byExponent_range {mu e o x y : Int} (h : Spec.ByExponent mu e o x y) : -31 ≤ e := by
  unfold Spec.ByExponent at h
  split at h
  · omega
  · have := h.2.1; omega

/-- The model of a stage does what the documentation says, for every entry. -/
theorem stage_maps {m : OvMode} {s : Stage} {r c : Nat} {x : BitVec 32} {y : Int}
    (h : s.Maps r c x.toInt y) : s.scalar m r c x = .ok (BitVec.ofInt 32 y) ∧ InI32 y := by
  have hrange : s.scalar m r c x = .ok (BitVec.ofInt 32 y) → (∃ z : BitVec 32, z.toInt = y) →
      s.scalar m r c x = .ok (BitVec.ofInt 32 y) ∧ InI32 y := by
    rintro h1 ⟨z, rfl⟩
    exact ⟨h1, inI32_toInt z⟩
  have hqd : ∀ {o mu sh x y : Int}, InI32 x → Spec.QuantizeDown o mu sh x y → InI32 y := by
    rintro o mu sh x y hx ⟨h1, h2, h3, h4, h5⟩
    obtain ⟨q, -, e2⟩ := rdpot_ok (m := m) (w := 32) (by omega) (e := sh.toNat) (by omega) (by omega)
      (BitVec.ofInt 32 ((x + o) * mu))
    rw [toInt_ofInt32 h4] at e2
    rw [h5.unique e2]
    exact inI32_toInt q
  have hfp : ∀ {mu sh o x y : Int}, Spec.ByFixedPoint mu sh o x y → InI32 y := fun h => h.2.2.1
  have hbe : ∀ {mu e o x y : Int}, Spec.ByExponent mu e o x y → InI32 y := by
    intro mu e o x y h
    unfold Spec.ByExponent at h
    split at h
    · exact hfp h.2
    · exact hfp h
  cases s with
  | quantizeDown o mu sh => exact ⟨quantizeDownReg_ok h, hqd (inI32_toInt x) h⟩
  | quantizeDownPC shape o mu sh =>
    obtain ⟨ov, mv, h1, h2, h3⟩ := h
    refine ⟨?_, hqd (inI32_toInt x) h3⟩
    simp only [Stage.scalar]
    rw [elem_read h2, ok_bind, elem_read h1, ok_bind]
    exact quantizeDownReg_ok h3
  | byFixedPoint mu sh o => exact ⟨byFixedPointReg_ok h, hfp h⟩
  | byExponent mu e o =>
    refine ⟨?_, hbe h⟩
    simp only [Stage.scalar]
    have hn := neg_ok (m := m) (byExponent_range h)
    rw [hn.1, ok_bind]
    exact byExponentReg_ok h rfl (by rw [hn.2])
  | byExponentPC shape mu e o =>
    obtain ⟨mv, ev, h1, h2, h3⟩ := h
    refine ⟨?_, hbe h3⟩
    simp only [Stage.scalar]
    have hn := neg_ok (m := m) (byExponent_range h3)
    rw [elem_read h2, ok_bind, elem_read h1, ok_bind, hn.1, ok_bind]
    exact byExponentReg_ok h3 (max32_zero _) (by rw [max32_zero, hn.2])
  | bias v =>
    obtain ⟨b, h1, h2, h3⟩ := h
    refine ⟨?_, h3⟩
    simp only [Stage.scalar]
    have : v.read (posOf v.shape r c) = .ok b := by
      cases v with
      | map sh d bs n => cases sh <;> simp only [OffsetVec.Elem] at h1 <;>
          simp only [OffsetVec.read, OffsetVec.shape, posOf, h1]
      | dup sh v n => simp only [OffsetVec.Elem] at h1; subst h1; rfl
    rw [this, ok_bind, fxAdd_ok (by rw [← h2]; exact h3), ← h2]
  | clamp lo hi =>
    have e : (min32 (max32 x lo) hi).toInt = y := by
      rw [min32_toInt, max32_toInt]; exact h.symm
    refine hrange ?_ ⟨_, e⟩
    simp only [Stage.scalar]
    rw [← e, BitVec.ofInt_toInt]; rfl
  | tanh p => exact h.elim

theorem stagesMap_ok {m : OvMode} : ∀ {l : List Stage} {r c : Nat} {x : BitVec 32} {y : Int},
    StagesMap l r c x.toInt y → scalarStages m l r c x = .ok (BitVec.ofInt 32 y) ∧ InI32 y := by
  intro l
  induction l with
  | nil =>
    intro r c x y h
    simp only [StagesMap] at h
    subst h
    exact ⟨by simp only [scalarStages, BitVec.ofInt_toInt]; rfl, inI32_toInt x⟩
  | cons s l ih =>
    intro r c x y h
    obtain ⟨z, h1, h2⟩ := h
    obtain ⟨e1, e2⟩ := stage_maps (m := m) h1
    simp only [scalarStages]
    rw [e1, ok_bind]
    exact ih (by rw [toInt_ofInt32 e2]; exact h2)

theorem castReg_value (k : Cast) {y : Int} (h : InI32 y) : k.reg (BitVec.ofInt 32 y) = k.value y := by
  cases k <;> simp only [Cast.reg, Cast.value, toInt_ofInt32 h, Spec.clampTo] <;>
    (repeat' split) <;> omega

theorem pipeline_maps {m : OvMode} {p : Pipeline} {r c : Nat} {x : BitVec 32} {v : Int}
    (h : p.Maps r c x.toInt v) : p.scalar m r c x = .ok v := by
  obtain ⟨y, h1, h2⟩ := h
  obtain ⟨e1, e2⟩ := stagesMap_ok (m := m) h1
  unfold Pipeline.scalar
  rw [e1, ok_bind, castReg_value _ e2, ← h2]; rfl

/-! ## C28 -/

/-- **C28.**  Evaluating a pipeline on any register tile, at any global position, gives every entry
the composition of the documented actions of the stages at that entry's own global row and column. -/
theorem C28_pipeline_composes (m : OvMode) (p : Pipeline) (R C row col : Nat) (hR : 0 < R) (hC : 0 < C)
    (x v : Nat → Nat → Int)
    (hx : ∀ i j, i < R → j < C → InI32 (x i j))
    (h : ∀ i j, i < R → j < C → p.Maps (row + i) (col + j) (x i j) (v i j)) :
    p.eval m (RBlock.of R C fun i j => BitVec.ofInt 32 (x i j)) row col = .ok (RBlock.of R C v) := by
  apply pipeline_ok m p R C _ _ row col hR hC
  intro i j hi hj
  apply pipeline_maps
  rw [toInt_ofInt32 (hx i j hi hj)]
  exact h i j hi hj

/-- **C28**, independence of the tile: also for pipelines containing the tanh stage and for
arguments on which something overflows modulo 2^32, a tile is evaluated as its entries would be
one by one. -/
theorem C28_tile_independent (m : OvMode) (p : Pipeline) (R C row col : Nat) (hR : 0 < R) (hC : 0 < C)
    (f : Nat → Nat → BitVec 32) (v : Nat → Nat → Int)
    (h : ∀ i j, i < R → j < C → p.scalar m (row + i) (col + j) (f i j) = .ok (v i j)) :
    p.eval m (RBlock.of R C f) row col = .ok (RBlock.of R C v) ∧
    ∀ i j, i < R → j < C → p.eval m (RBlock.of 1 1 fun _ _ => f i j) (row + i) (col + j) =
      .ok (RBlock.of 1 1 fun _ _ => v i j) := by
  refine ⟨pipeline_ok m p R C _ _ row col hR hC h, fun i j hi hj => ?_⟩
  apply pipeline_ok m p 1 1 _ _ _ _ (by omega) (by omega)
  intro a b ha hb
  have : a = 0 := by omega
  have : b = 0 := by omega
  subst a; subst b
  exact h i j hi hj

/-- **C28.**  The empty pipeline stores the accumulator. -/
theorem C28_empty (m : OvMode) (R C row col : Nat) (hR : 0 < R) (hC : 0 < C) (f : Nat → Nat → BitVec 32) :
    ({ stages := [], cast := .none } : Pipeline).eval m (RBlock.of R C f) row col =
      .ok (RBlock.of R C fun i j => (f i j).toInt) :=
  pipeline_ok m _ R C _ _ row col hR hC fun _ _ _ _ => rfl

/-- A bias (one per column), a quantize-down stage, a clamp and a saturating cast, on the entry at
row 3, column 1: 1000 + 20 = 1020, (1020 + 4) * 3 / 8 = 384, clamped to 300, cast to 255. -/
example : ({ stages := [.bias (.map .row (fun i => [10, 20][i]?) 0 2), .quantizeDown 4 3 3,
      .clamp 0 300], cast := .satUint8 } : Pipeline).Maps 3 1 1000 255 := by
  refine ⟨300, ⟨1020, ⟨20, rfl, by decide, by decide⟩, ⟨384, ?_, ⟨300, (by decide : (300 : Int) = min (max 384 (0 : BitVec 32).toInt) (300 : BitVec 32).toInt), rfl⟩⟩⟩, by decide⟩
  refine ⟨by decide, by decide, by decide, by decide, ?_⟩
  rw [show ((1020 : Int) + (4 : BitVec 32).toInt) * (3 : BitVec 32).toInt = 384 * 2 ^ 3 by decide]
  exact Spec.NearestAway.exact (by decide)

/-! ## C23 -/

/-- **C23.**  The quantize-down stage divides `(x + offset) * mult` by `2^shift`, rounding to
nearest. -/
theorem C23_quantizeDown (m : OvMode) (o mu sh : BitVec 32) (R C row col : Nat)
    (f : Nat → Nat → BitVec 32) (hs0 : 0 ≤ sh.toInt) (hs : sh.toInt ≤ 31) (hR : 0 < R) (hC : 0 < C)
    (h1 : ∀ i j, i < R → j < C → InI32 ((f i j).toInt + o.toInt))
    (h2 : ∀ i j, i < R → j < C → InI32 (((f i j).toInt + o.toInt) * mu.toInt)) :
    ∃ g : Nat → Nat → BitVec 32,
      (Stage.quantizeDown o mu sh).eval m (RBlock.of R C f) row col = .ok (RBlock.of R C g) ∧
      ∀ i j, i < R → j < C → Spec.NearestAway (((f i j).toInt + o.toInt) * mu.toInt)
        (2 ^ sh.toInt.toNat) (g i j).toInt := by
  have key : ∀ i j, i < R → j < C → ∃ y : BitVec 32, quantizeDownReg m o mu sh (f i j) = .ok y ∧
      Spec.NearestAway (((f i j).toInt + o.toInt) * mu.toInt) (2 ^ sh.toInt.toNat) y.toInt := by
    intro i j hi hj
    obtain ⟨q, -, e2⟩ := rdpot_ok (m := m) (w := 32) (by omega) (e := sh.toInt.toNat) (by omega)
      (by omega) (BitVec.ofInt 32 (((f i j).toInt + o.toInt) * mu.toInt))
    rw [toInt_ofInt32 (h2 i j hi hj)] at e2
    refine ⟨q, ?_, e2⟩
    rw [quantizeDownReg_ok (y := q.toInt) ⟨hs0, hs, h1 i j hi hj, h2 i j hi hj, e2⟩, BitVec.ofInt_toInt]
  refine ⟨fun i j => okVal (quantizeDownReg m o mu sh (f i j)), ?_, ?_⟩
  · apply stage_eval_ok m _ hR hC
    intro i j hi hj
    obtain ⟨y, e1, -⟩ := key i j hi hj
    show quantizeDownReg m o mu sh (f i j) = _
    rw [e1]; rfl
  · intro i j hi hj
    obtain ⟨y, e1, e2⟩ := key i j hi hj
    simp only [e1]; exact e2

/-- **C23**, per-row or per-column variant: every entry gets the offset and multiplier of its own
row (shape `col`) or column (shape `row`). -/
theorem C23_quantizeDownPC (m : OvMode) (shape : VectorShape) (o mu : VMap) (sh : BitVec 32)
    (R C row col : Nat) (f : Nat → Nat → BitVec 32) (ov mv : Nat → Nat → BitVec 32)
    (y : Nat → Nat → Int) (hR : 0 < R) (hC : 0 < C)
    (ho : ∀ i j, i < R → j < C → o.Elem shape (row + i) (col + j) (ov i j))
    (hm : ∀ i j, i < R → j < C → mu.Elem shape (row + i) (col + j) (mv i j))
    (hq : ∀ i j, i < R → j < C →
      Spec.QuantizeDown (ov i j).toInt (mv i j).toInt sh.toInt (f i j).toInt (y i j)) :
    (Stage.quantizeDownPC shape o mu sh).eval m (RBlock.of R C f) row col =
      .ok (RBlock.of R C fun i j => BitVec.ofInt 32 (y i j)) := by
  apply stage_eval_ok m _ hR hC
  intro i j hi hj
  exact (stage_maps (s := .quantizeDownPC shape o mu sh)
    ⟨_, _, ho i j hi hj, hm i j hi hj, hq i j hi hj⟩).1

/-- **C23** (partial).  The formula in the documentation, `(p + rounding) >> shift`, is what the
stage computes except at the ties of negative products. -/
theorem C23_documented_formula_partial (p : Int) (s : Nat) (y : Int)
    (h : Spec.NearestAway p (2 ^ s) y) (ht : 0 ≤ p ∨ s = 0 ∨ p % 2 ^ s ≠ 2 ^ (s - 1)) :
    y = (p + (if s < 1 then 0 else 2 ^ (s - 1))) / 2 ^ s := by
  by_cases hs : s = 0
  · subst hs
    have : y = p := by
      unfold Spec.NearestAway at h
      norm_num at h
      split at h <;> omega
    rw [this]
    norm_num
  · rw [if_neg (by omega)]
    obtain ⟨k, rfl⟩ : ∃ k, s = k + 1 := ⟨s - 1, by omega⟩
    rw [Nat.add_sub_cancel] at *
    have hp := two_pow_pos' k
    rw [two_pow_succ'] at *
    generalize (2 : Int) ^ k = P at *
    have hup : Spec.NearestUp p (2 * P) y := by
      unfold Spec.NearestAway at h
      unfold Spec.NearestUp
      split at h
      · exact h
      · refine ⟨?_, by omega⟩
        rcases Int.lt_or_eq_of_le h.1 with h1 | h1
        · exact h1
        · exfalso
          have e : p = P + y * (2 * P) := by omega
          rcases ht with h2 | h2 | h2
          · omega
          · omega
          · apply h2
            rw [e, Int.add_mul_emod_self_right, Int.emod_eq_of_lt (by omega) (by omega)]
    rw [Spec.nearestUp_iff (by omega)] at hup
    rw [hup, show 2 * p + 2 * P = 2 * (p + P) by omega, Int.mul_ediv_mul_of_pos _ _ (by omega)]

/-- At a tie of a negative product the documented formula rounds up and the code rounds away from
zero. -/
theorem C23_documented_formula_fails :
    (Stage.quantizeDown 0 1 1).eval .trap (RBlock.of 1 1 fun _ _ => -1) 0 0 =
      .ok (RBlock.of 1 1 fun _ _ => -1) ∧
    ((-1 : Int) + 2 ^ (1 - 1)) / 2 ^ 1 = 0 := by
  refine ⟨?_, by decide⟩
  apply stage_eval_ok .trap _ (by omega) (by omega)
  intro i j _ _
  show quantizeDownReg .trap 0 1 1 (-1) = .ok (-1)
  decide

example : Spec.QuantizeDown (-3) 5 2 10 9 := by
  refine ⟨by decide, by decide, by decide, by decide, ?_⟩
  unfold Spec.NearestAway; decide

/-! ## C24 -/

theorem highMul_total {x mu : Int} (hx : InI32 x) (hm : InI32 mu) : ∃ h, Spec.HighMul x mu h ∧ InI32 h := by
  refine ⟨(srdhm (BitVec.ofInt 32 x) (BitVec.ofInt 32 mu)).toInt, ?_, inI32_toInt _⟩
  have := C29_srdhm (w := 32) (by omega) (BitVec.ofInt 32 x) (BitVec.ofInt 32 mu)
  rw [toInt_ofInt32 hx, toInt_ofInt32 hm] at this
  norm_num at this
  unfold Spec.HighMul
  split at this <;> rename_i hc
  · rw [if_pos hc]; exact this
  · rw [if_neg hc]; exact this

theorem nearestAway_total {x : Int} (hx : InI32 x) {s : Nat} (hs : s ≤ 31) :
    ∃ q, Spec.NearestAway x (2 ^ s) q := by
  obtain ⟨q, -, e⟩ := rdpot_ok (m := .wrap) (w := 32) (by omega) (e := s) (by omega) hs
    (BitVec.ofInt 32 x)
  rw [toInt_ofInt32 hx] at e
  exact ⟨_, e⟩

/-- The two roundings together are off by at most one unit. -/
theorem two_roundings {x mu h q : Int} {s : Nat} (hh : Spec.HighMul x mu h)
    (hq : Spec.NearestAway h (2 ^ s) q) :
    (q * 2 ^ (31 + s) - x * mu).natAbs ≤ 2 ^ (31 + s) := by
  have h1 : -2147483648 ≤ h * 2147483648 - x * mu ∧ h * 2147483648 - x * mu ≤ 2147483648 := by
    unfold Spec.HighMul at hh
    split at hh <;> rename_i hc
    · rw [hc.1, hc.2, hh]; decide
    · unfold Spec.NearestUp at hh; omega
  have h2 : -(2 : Int) ^ s ≤ 2 * (q * 2 ^ s - h) ∧ 2 * (q * 2 ^ s - h) ≤ (2 : Int) ^ s := by
    unfold Spec.NearestAway at hq
    split at hq <;> omega
  have e : (2 : Int) ^ (31 + s) = 2 ^ s * 2147483648 := by rw [Nat.add_comm, pow_add]; norm_num
  have e' : ((2 ^ (31 + s) : Nat) : Int) = 2 ^ s * 2147483648 := by rw [← e]; norm_cast
  have key : ∀ d : Int, -((2 ^ (31 + s) : Nat) : Int) ≤ d → d ≤ ((2 ^ (31 + s) : Nat) : Int) →
      d.natAbs ≤ 2 ^ (31 + s) := by
    intro d; generalize 2 ^ (31 + s) = N; omega
  apply key <;> rw [e', e, ← mul_assoc]
  all_goals
    clear e e' key hq
    generalize x * mu = p at *
    cases s with
    | zero => simp only [pow_zero] at *; omega
    | succ k =>
      have hk := two_pow_pos' k
      rw [two_pow_succ'] at *
      generalize q * (2 * (2 : Int) ^ k) = u at *
      generalize (2 : Int) ^ k = P at *
      omega

/-- One-entry tiles. -/
theorem byFixedPoint_one (m : OvMode) (mu sh o x : BitVec 32) (r c : Nat) :
    (Stage.byFixedPoint mu sh o).eval m (RBlock.of 1 1 fun _ _ => x) r c =
      (byFixedPointReg m mu sh o x >>= fun y => .ok (RBlock.of 1 1 fun _ _ => y)) := by
  show (RBlock.of 1 1 fun _ _ => x).mapM' _ = _
  show (List.mapM (m := Except Fault) (byFixedPointReg m mu sh o) [x] >>= _) = _
  rw [List.mapM_cons]
  cases byFixedPointReg m mu sh o x <;> rfl

/-- **C24.**  The stage computes a value within 1 of `x * mult / 2^(31 + shift)`, for all arguments,
without overflow, and only the addition of the offset to it may overflow. -/
theorem C24_error_bound (m : OvMode) (mu sh o x : BitVec 32) (r c : Nat) (hs0 : 0 ≤ sh.toInt)
    (hs : sh.toInt ≤ 31) :
    ∃ q : Int, (q * 2 ^ (31 + sh.toInt.toNat) - x.toInt * mu.toInt).natAbs ≤
        2 ^ (31 + sh.toInt.toNat) ∧
      (Stage.byFixedPoint mu sh o).eval m (RBlock.of 1 1 fun _ _ => x) r c =
        if m = .trap ∧ ¬ InI32 (q + o.toInt) then .error .overflow
        else .ok (RBlock.of 1 1 fun _ _ => BitVec.ofInt 32 (q + o.toInt)) := by
  obtain ⟨h, hh, hi⟩ := highMul_total (inI32_toInt x) (inI32_toInt mu)
  obtain ⟨q, q1, q2⟩ := rdpot_ok (m := m) (w := 32) (by omega) (e := sh.toInt.toNat) (by omega)
    (by omega) (srdhm x mu)
  rw [srdhm32 hh] at q2
  rw [Int.toNat_of_nonneg hs0] at q1
  refine ⟨q.toInt, two_roundings hh q2, ?_⟩
  have hreg : byFixedPointReg m mu sh o x = retW m 32 (q.toInt + o.toInt) := by
    unfold byFixedPointReg
    rw [q1, ok_bind]; rfl
  by_cases hc : m = .trap ∧ ¬ InI32 (q.toInt + o.toInt)
  · rw [if_pos hc]
    have he : byFixedPointReg m mu sh o x = .error .overflow := by
      rw [hreg]; unfold retW; rw [if_pos ⟨hc.1, fun h => hc.2 (inW32.1 h)⟩]
    rw [byFixedPoint_one, he]; rfl
  · rw [if_neg hc]
    apply stage_eval_ok m _ (by omega) (by omega)
    intro i j _ _
    show byFixedPointReg m mu sh o x = _
    rw [hreg]
    unfold retW
    rw [if_neg (fun h => hc ⟨h.1, fun h' => h.2 (inW32.2 h')⟩)]

/-- Rounding to nearest is monotone. -/
theorem nearestUp_mono {x x' d q q' : Int} (hd : 0 < d) (hx : x ≤ x') (h : Spec.NearestUp x d q)
    (h' : Spec.NearestUp x' d q') : q ≤ q' := by
  rw [Spec.nearestUp_iff hd] at h h'
  subst h; subst h'
  exact Int.ediv_le_ediv (by omega) (by omega)

theorem nearestAway_mono {x x' d q q' : Int} (hd : 0 < d) (hx : x ≤ x') (h : Spec.NearestAway x d q)
    (h' : Spec.NearestAway x' d q') : q ≤ q' := by
  by_cases hlt : q ≤ q'
  · exact hlt
  · exfalso
    have h1 : (q' + 1) * d ≤ q * d := Int.mul_le_mul_of_nonneg_right (by omega) (by omega)
    rw [Int.add_mul, Int.one_mul] at h1
    by_cases he : x = x'
    · subst he
      exact hlt (by rw [h.unique h'])
    · unfold Spec.NearestAway at h h'
      split at h <;> split at h' <;> omega

/-- **C24**, monotone in `x` for a non-negative multiplier. -/
theorem C24_monotone (mu sh o x x' y y' : BitVec 32) (r c : Nat) (hs0 : 0 ≤ sh.toInt)
    (hs : sh.toInt ≤ 31) (hmu : 0 ≤ mu.toInt) (hx : x.toInt ≤ x'.toInt)
    (h : (Stage.byFixedPoint mu sh o).eval .trap (RBlock.of 1 1 fun _ _ => x) r c =
      .ok (RBlock.of 1 1 fun _ _ => y))
    (h' : (Stage.byFixedPoint mu sh o).eval .trap (RBlock.of 1 1 fun _ _ => x') r c =
      .ok (RBlock.of 1 1 fun _ _ => y')) : y.toInt ≤ y'.toInt := by
  have key : ∀ x y : BitVec 32, (Stage.byFixedPoint mu sh o).eval .trap (RBlock.of 1 1 fun _ _ => x) r c =
      .ok (RBlock.of 1 1 fun _ _ => y) → ∃ h q, Spec.HighMul x.toInt mu.toInt h ∧
        Spec.NearestAway h (2 ^ sh.toInt.toNat) q ∧ y.toInt = q + o.toInt := by
    intro x y hxy
    obtain ⟨h, hh, hi⟩ := highMul_total (inI32_toInt x) (inI32_toInt mu)
    obtain ⟨q, q1, q2⟩ := rdpot_ok (m := .trap) (w := 32) (by omega) (e := sh.toInt.toNat) (by omega)
      (by omega) (srdhm x mu)
    rw [srdhm32 hh] at q2
    rw [Int.toNat_of_nonneg hs0] at q1
    refine ⟨h, q.toInt, hh, q2, ?_⟩
    have hreg : byFixedPointReg .trap mu sh o x = retW .trap 32 (q.toInt + o.toInt) := by
      unfold byFixedPointReg
      rw [q1, ok_bind]; rfl
    rw [byFixedPoint_one, hreg] at hxy
    by_cases hw : InW 32 (q.toInt + o.toInt)
    · rw [retW_ok hw, ok_bind] at hxy
      injection hxy with hxy
      have : BitVec.ofInt 32 (q.toInt + o.toInt) = y := by
        have := congrArg RBlock.reg hxy
        simpa [RBlock.of] using this
      rw [← this, toInt_ofInt32 (inW32.1 hw)]
    · unfold retW at hxy
      rw [if_pos ⟨rfl, hw⟩] at hxy
      exact absurd hxy (by simp [error_bind])
  obtain ⟨h1, q1, a1, b1, c1⟩ := key x y h
  obtain ⟨h2, q2, a2, b2, c2⟩ := key x' y' h'
  have hn : ∀ z : Int, ¬ (z = -2147483648 ∧ mu.toInt = -2147483648) := by omega
  unfold Spec.HighMul at a1 a2
  rw [if_neg (hn _)] at a1 a2
  have := nearestUp_mono (by omega) (Int.mul_le_mul_of_nonneg_right hx hmu) a1 a2
  have := nearestAway_mono (two_pow_pos' _) this b1 b2
  omega

/-- **C24.**  Zero goes to the offset. -/
theorem C24_zero (m : OvMode) (mu sh o : BitVec 32) (r c : Nat) (hs0 : 0 ≤ sh.toInt)
    (hs : sh.toInt ≤ 31) :
    (Stage.byFixedPoint mu sh o).eval m (RBlock.of 1 1 fun _ _ => 0) r c =
      .ok (RBlock.of 1 1 fun _ _ => o) := by
  apply stage_eval_ok m _ (by omega) (by omega)
  intro i j _ _
  have h : Spec.ByFixedPoint mu.toInt sh.toInt o.toInt (0 : BitVec 32).toInt o.toInt := by
    refine ⟨hs0, hs, inI32_toInt o, 0, ?_, ?_⟩
    · unfold Spec.HighMul Spec.NearestUp
      rw [if_neg (fun h => absurd h.1 (by decide))]
      simp
    · rw [Int.sub_self]
      have := Spec.NearestAway.exact (q := 0) (two_pow_pos' sh.toInt.toNat)
      simpa using this
  have := byFixedPointReg_ok (m := m) h
  rwa [BitVec.ofInt_toInt] at this

/-- **C24.**  Equivalently: both roundings are to nearest. -/
theorem C24_byFixedPoint (m : OvMode) (mu sh o : BitVec 32) (R C row col : Nat) (hR : 0 < R) (hC : 0 < C)
    (f : Nat → Nat → BitVec 32) (y : Nat → Nat → Int)
    (h : ∀ i j, i < R → j < C →
      Spec.ByFixedPoint mu.toInt sh.toInt o.toInt (f i j).toInt (y i j)) :
    (Stage.byFixedPoint mu sh o).eval m (RBlock.of R C f) row col =
      .ok (RBlock.of R C fun i j => BitVec.ofInt 32 (y i j)) :=
  stage_eval_ok m _ hR hC fun i j hi hj => byFixedPointReg_ok (h i j hi hj)

/-- 1000 * 0.5 / 2^3 = 62.5, rounded to 63; offset 7. -/
example : Spec.ByFixedPoint (2 ^ 30) 3 7 1000 70 := by
  refine ⟨by decide, by decide, by decide, 500, ?_, ?_⟩
  · unfold Spec.HighMul Spec.NearestUp; decide
  · unfold Spec.NearestAway; decide

/-! ## C25 -/

/-- **C25.**  Left shift (saturating), multiplication, right shift rounded to nearest, offset. -/
theorem C25_byExponent (m : OvMode) (mu e o : BitVec 32) (R C row col : Nat) (hR : 0 < R) (hC : 0 < C)
    (f : Nat → Nat → BitVec 32) (y : Nat → Nat → Int)
    (h : ∀ i j, i < R → j < C → Spec.ByExponent mu.toInt e.toInt o.toInt (f i j).toInt (y i j)) :
    (Stage.byExponent mu e o).eval m (RBlock.of R C f) row col =
      .ok (RBlock.of R C fun i j => BitVec.ofInt 32 (y i j)) :=
  stage_eval_ok m _ hR hC fun i j hi hj =>
    (stage_maps (s := .byExponent mu e o) (r := row + i) (c := col + j) (h i j hi hj)).1

/-- **C25**, per-row or per-column variant: the exponent, with its own direction, and the multiplier
of the entry's own row or column. -/
theorem C25_byExponentPC (m : OvMode) (shape : VectorShape) (mu e : VMap) (o : BitVec 32)
    (R C row col : Nat) (hR : 0 < R) (hC : 0 < C) (f : Nat → Nat → BitVec 32)
    (mv ev : Nat → Nat → BitVec 32) (y : Nat → Nat → Int)
    (hm : ∀ i j, i < R → j < C → mu.Elem shape (row + i) (col + j) (mv i j))
    (he : ∀ i j, i < R → j < C → e.Elem shape (row + i) (col + j) (ev i j))
    (h : ∀ i j, i < R → j < C →
      Spec.ByExponent (mv i j).toInt (ev i j).toInt o.toInt (f i j).toInt (y i j)) :
    (Stage.byExponentPC shape mu e o).eval m (RBlock.of R C f) row col =
      .ok (RBlock.of R C fun i j => BitVec.ofInt 32 (y i j)) :=
  stage_eval_ok m _ hR hC fun i j hi hj =>
    (stage_maps (s := .byExponentPC shape mu e o) ⟨_, _, hm i j hi hj, he i j hi hj, h i j hi hj⟩).1

/-- **C25.**  For an exponent `-s ≤ 0` the stage is the fixed-point stage with shift `s`. -/
theorem C25_nonpositive_exponent (m : OvMode) (mu e o sh : BitVec 32) (hsh : sh.toInt = -e.toInt)
    (he : e.toInt ≤ 0) (b : RBlock (BitVec 32)) (row col : Nat) :
    (Stage.byExponent mu e o).eval m b row col = (Stage.byFixedPoint mu sh o).eval m b row col := by
  have hs := inI32_toInt sh
  have hne : Fx.neg m e = .ok sh := by
    have : InI32 (-e.toInt) := by rw [← hsh]; exact hs
    unfold Fx.neg
    rw [retW_ok (inW32.2 this), ← hsh, BitVec.ofInt_toInt]
  have hfun : byExponentReg m (max 0 e.toInt) (max 0 sh.toInt) mu o = byFixedPointReg m mu sh o := by
    funext x
    unfold byExponentReg byFixedPointReg
    obtain ⟨r', e1, e2⟩ := C39_shiftLeft_partial (w := 32) (by omega) 0 (by omega) x
    have hx : r' = x := by
      apply BitVec.eq_of_toInt_eq
      rw [e2]
      have := inI32_toInt x
      unfold InI32 at this
      unfold Spec.clampTo
      norm_num
      omega
    rw [show max 0 e.toInt = ((0 : Nat) : Int) by omega, e1, ok_bind, hx,
      show max 0 sh.toInt = sh.toInt by omega]
  simp only [Stage.eval]
  rw [hne, ok_bind, hfun]

/-- 1000 * 2^4 * 0.5; and a saturating left shift. -/
example : Spec.ByExponent (2 ^ 30) 4 5 1000 8005 ∧ Spec.ByExponent (2 ^ 30) 30 0 1000 1073741824 := by
  constructor
  · unfold Spec.ByExponent
    rw [if_pos (by decide)]
    refine ⟨by decide, by decide, by decide, by decide, 8000, ?_, ?_⟩
    · unfold Spec.HighMul Spec.NearestUp; decide
    · unfold Spec.NearestAway; decide
  · unfold Spec.ByExponent
    rw [if_pos (by decide)]
    refine ⟨by decide, by decide, by decide, by decide, 1073741824, ?_, ?_⟩
    · unfold Spec.HighMul Spec.NearestUp; decide
    · unfold Spec.NearestAway; decide

/-! ## C26 -/

/-- **C26**, scalar versions: the casts return the nearest value of the destination type, for every
entry of every tile. -/
theorem C26_saturating_casts (m : OvMode) (R C row col : Nat) (hR : 0 < R) (hC : 0 < C)
    (f : Nat → Nat → BitVec 32) :
    ({ stages := [], cast := .satUint8 } : Pipeline).eval m (RBlock.of R C f) row col =
      .ok (RBlock.of R C fun i j => Spec.clampTo 0 255 (f i j).toInt) ∧
    ({ stages := [], cast := .satInt8 } : Pipeline).eval m (RBlock.of R C f) row col =
      .ok (RBlock.of R C fun i j => Spec.clampTo (-128) 127 (f i j).toInt) ∧
    ({ stages := [], cast := .satInt16 } : Pipeline).eval m (RBlock.of R C f) row col =
      .ok (RBlock.of R C fun i j => Spec.clampTo (-32768) 32767 (f i j).toInt) := by
  have key : ∀ k : Cast, ({ stages := [], cast := k } : Pipeline).eval m (RBlock.of R C f) row col =
      .ok (RBlock.of R C fun i j => k.value (f i j).toInt) := fun k =>
    pipeline_ok m _ R C _ _ row col hR hC fun i j _ _ => pipeline_maps ⟨_, rfl, rfl⟩
  exact ⟨key .satUint8, key .satInt8, key .satInt16⟩

/-! ## C27 -/

/-- **C27.**  A column-shaped bias vector adds `bias(row)`, whatever the tile. -/
theorem C27_bias_col (m : OvMode) (d : Nat → Option (BitVec 32)) (base n : Nat) (B : Nat → BitVec 32)
    (hB : ∀ i, i < n → d (base + i) = some (B i)) (R C row col : Nat) (hR : 0 < R) (hC : 0 < C)
    (hrow : row + R ≤ n) (f : Nat → Nat → BitVec 32)
    (h : ∀ i j, i < R → j < C → InI32 ((f i j).toInt + (B (row + i)).toInt)) :
    (Stage.bias (.map .col d base n)).eval m (RBlock.of R C f) row col =
      .ok (RBlock.of R C fun i j => BitVec.ofInt 32 ((f i j).toInt + (B (row + i)).toInt)) := by
  apply stage_eval_ok m _ hR hC
  intro i j hi hj
  exact (stage_maps (s := .bias (.map .col d base n)) (r := row + i) (c := col + j)
    ⟨B (row + i), hB _ (by omega), rfl, h i j hi hj⟩).1

/-- **C27.**  A row-shaped bias vector adds `bias(col)`, whatever the tile. -/
theorem C27_bias_row (m : OvMode) (d : Nat → Option (BitVec 32)) (base n : Nat) (B : Nat → BitVec 32)
    (hB : ∀ i, i < n → d (base + i) = some (B i)) (R C row col : Nat) (hR : 0 < R) (hC : 0 < C)
    (hcol : col + C ≤ n) (f : Nat → Nat → BitVec 32)
    (h : ∀ i j, i < R → j < C → InI32 ((f i j).toInt + (B (col + j)).toInt)) :
    (Stage.bias (.map .row d base n)).eval m (RBlock.of R C f) row col =
      .ok (RBlock.of R C fun i j => BitVec.ofInt 32 ((f i j).toInt + (B (col + j)).toInt)) := by
  apply stage_eval_ok m _ hR hC
  intro i j hi hj
  exact (stage_maps (s := .bias (.map .row d base n)) (r := row + i) (c := col + j)
    ⟨B (col + j), hB _ (by omega), rfl, h i j hi hj⟩).1

/-- **C27.**  The clamp stage. -/
theorem C27_clamp (m : OvMode) (lo hi : BitVec 32) (R C row col : Nat) (hR : 0 < R) (hC : 0 < C)
    (f : Nat → Nat → BitVec 32) :
    ∃ g : Nat → Nat → BitVec 32,
      (Stage.clamp lo hi).eval m (RBlock.of R C f) row col = .ok (RBlock.of R C g) ∧
      ∀ i j, (g i j).toInt = min (max (f i j).toInt lo.toInt) hi.toInt := by
  refine ⟨fun i j => min32 (max32 (f i j) lo) hi, stage_eval_ok m _ hR hC fun i j _ _ => rfl, ?_⟩
  intro i j
  rw [min32_toInt, max32_toInt]

/-- **C27.**  The truncating cast keeps the low eight bits. -/
theorem C27_truncating_cast (m : OvMode) (R C row col : Nat) (hR : 0 < R) (hC : 0 < C)
    (f : Nat → Nat → BitVec 32) :
    ({ stages := [], cast := .truncUint8 } : Pipeline).eval m (RBlock.of R C f) row col =
      .ok (RBlock.of R C fun i j => (((f i j).setWidth 8).toNat : Int)) := by
  apply pipeline_ok m _ R C _ _ row col hR hC
  intro i j _ _
  have : (f i j).toInt % 256 = (((f i j).setWidth 8).toNat : Int) := by
    rw [BitVec.toNat_setWidth, BitVec.toInt_eq_toNat_cond]
    split <;> omega
  show Except.ok ((f i j).toInt % 256) = _
  rw [this]

/-- A bias vector of three elements and a 2 × 2 tile at row 1. -/
example : ∀ i, i < 3 → (fun i => [(5 : BitVec 32), 6, 7][i]?) (0 + i) =
    some ((fun i => BitVec.ofNat 32 (5 + i)) i) := by decide

end Gemmlowp
