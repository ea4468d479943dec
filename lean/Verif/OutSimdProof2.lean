import Verif.OutSimdProof
import Verif.OutSimdSpec
/-!
# The vector code of the output stages, lane by lane
-/
namespace Gemmlowp.OutSimd

open Isa

/-! ## Operations -/

theorem rdpot_vec {W : Wrap} (hW : WrapOk W) {m : OvMode} {a c : Reg 4 32} {e : Int}
    (h : ∀ i, Fx.rdpot m (a i) e = .ok (c i)) : W.O.rdpot a e = .ok c := by
  have hr := rdpot_range (h 0)
  obtain ⟨k, rfl⟩ := Int.eq_ofNat_of_zero_le hr.1
  obtain ⟨r, e1, e2⟩ := hW.lanes.rdpot a k (by omega) (by omega)
  rw [e1]
  congr 1
  funext i
  have := rdpot_to_wrap (h i)
  rw [e2 i] at this
  exact Except.ok.inj this

theorem srdhm_vec {A : VArch} {a b : Reg 4 32} {i : Fin 4} (h : MulSafe A (a i) (b i)) :
    A.wrap.O.srdhm a b i = Fx.srdhm (a i) (b i) := by
  cases A with
  | sse => exact sse_wrap.lanes.srdhm a b i (h rfl)
  | neon => exact Simd.C34_srdhm_all.1 a b i
  | msa => exact Simd.C34_srdhm_all.2.2.2.2.1 a b i

theorem shl_range {x y : BitVec 32} {k : Int} (h : Fx.shiftLeft x k = .ok y) : 0 ≤ k ∧ k < 31 := by
  unfold Fx.shiftLeft at h
  split at h
  · cases h
  · omega

theorem shl_val {x y : BitVec 32} {k : Int} (h : Fx.shiftLeft x k = .ok y) (hs : ShlSafe x k) :
    y = x <<< k.toNat := by
  have hr := shl_range h
  unfold Fx.shiftLeft at h
  rw [if_neg (by omega)] at h
  have h := Except.ok.inj h
  unfold ShlSafe at hs
  have e1 : Fx.minW 32 = -2 ^ 31 := rfl
  have e2 : Fx.maxW 32 = 2 ^ 31 - 1 := rfl
  rw [e1, e2, if_neg (by omega), if_neg (by omega)] at h
  rw [← h, BitVec.ofInt_mul, BitVec.ofInt_toInt, BitVec.shiftLeft_eq_mul_twoPow]
  congr 1
  apply BitVec.eq_of_toNat_eq
  rw [BitVec.toNat_twoPow, BitVec.toNat_ofInt]
  have h31 : k.toNat < 31 := by omega
  have : (2 : Int) ^ k.toNat = ((2 ^ k.toNat : Nat) : Int) := by push_cast; rfl
  rw [this]
  omega

theorem shl_vec {W : Wrap} (hW : WrapOk W) {a : Reg 4 32} {k : Int} {i : Fin 4} {y : BitVec 32}
    (h : Fx.shiftLeft (a i) k = .ok y) (hs : ShlSafe (a i) k) : W.O.shiftLeft a k i = y := by
  have hr := shl_range h
  obtain ⟨n, rfl⟩ := Int.eq_ofNat_of_zero_le hr.1
  have := hW.lanes.shiftLeft a n i (by omega) (by omega) (by
    unfold ShlSafe at hs; unfold InW; rw [Int.toNat_natCast] at hs
    exact hs)
  rw [h] at this
  exact (Except.ok.inj this).symm

theorem shr_vec {W : Wrap} (hW : WrapOk W) {a : Reg 4 32} {k : Int} {i : Fin 4} {y : BitVec 32}
    (h : Fx.shiftRight (a i) k = .ok y) : W.O.shiftRight a k i = y := by
  have hr : 0 ≤ k ∧ k < 32 := by
    unfold Fx.shiftRight at h
    split at h
    · cases h
    · omega
  obtain ⟨n, rfl⟩ := Int.eq_ofNat_of_zero_le hr.1
  have := hW.lanes.shiftRight a n i (by omega) (by omega)
  rw [h] at this
  exact (Except.ok.inj this).symm

/-! ## Vectors of parameters -/

/-- `b` is what is loaded of a vector map: one column or one row of parameters. -/
def Bc2 (b : RBlock IReg) (R C : Nat) (G : Nat → Nat → BitVec 32) : Prop :=
  (b = lanes R 1 (fun i _ => G i 0) ∧ ∀ i j, i < R → j < C → G i j = G i 0) ∨
  (b = lanes 1 C (fun _ j => G 0 j) ∧ ∀ i j, i < R → j < C → G i j = G 0 j)

theorem loadV {R C row col : Nat} {sh : VectorShape} {d : Nat → Option (BitVec 32)} {b n : Nat}
    {G : Nat → Nat → BitVec 32} (hsh : Shape R C)
    (h : ∀ i j, i < R → j < C → (OffsetVec.map sh d b n).read (posOf sh (row + i) (col + j)) = .ok (G i j)) :
    ∃ k, loadForBroadcasting R C (.map sh d b n) (posOf sh row col) = .ok k ∧ Bc2 k R C G := by
  have hR0 : 0 < R := by rcases hsh.1 with h | h | h <;> omega
  have hC0 : 0 < C := by rcases hsh.2 with h | h <;> omega
  cases sh with
  | col =>
    refine ⟨_, loadCol_ok hsh.1 (g := fun i => G i 0) fun i hi => h i 0 hi hC0, Or.inl ⟨rfl, ?_⟩⟩
    intro i j hi hj
    have h1 := h i j hi hj
    have h2 := h i 0 hi hC0
    rw [show posOf VectorShape.col (row + i) (col + j) = posOf VectorShape.col (row + i) (col + 0) from rfl,
      h2] at h1
    exact (Except.ok.inj h1).symm
  | row =>
    refine ⟨_, loadRow_ok hsh.2 (g := fun j => G 0 j) fun j hj => h 0 j hR0 hj, Or.inr ⟨rfl, ?_⟩⟩
    intro i j hi hj
    have h1 := h i j hi hj
    have h2 := h 0 j hR0 hj
    rw [show posOf VectorShape.row (row + i) (col + j) = posOf VectorShape.row (row + 0) (col + j) from rfl,
      h2] at h1
    exact (Except.ok.inj h1).symm

theorem Bc2.map {b : RBlock IReg} {R C : Nat} {G O : Nat → Nat → BitVec 32} (hR : 0 < R) (hC : 0 < C)
    (hb : Bc2 b R C G)
    {fs : BitVec 32 → M (BitVec 32)} {fv : Reg 4 32 → M (Reg 4 32)} {F : BitVec 32 → BitVec 32}
    {S : BitVec 32 → BitVec 32 → Prop}
    (hL : Lift fs fv S) (h : ∀ i j, i < R → j < C → S (G i j) (O i j))
    (hO : ∀ i j, i < R → j < C → O i j = F (G i j)) :
    ∃ b', b.mapM' (onReg fs fv) = .ok b' ∧ Bc2 b' R C O := by
  rcases hb with ⟨rfl, hc⟩ | ⟨rfl, hc⟩
  · refine ⟨_, map_lanes hL (g := fun i _ => O i 0) fun i j hi hj => h i 0 hi hC, Or.inl ⟨rfl, ?_⟩⟩
    intro i j hi hj
    rw [hO i j hi hj, hO i 0 hi hC, hc i j hi hj]
  · refine ⟨_, map_lanes hL (g := fun _ j => O 0 j) fun i j hi hj => h 0 j hR hj, Or.inr ⟨rfl, ?_⟩⟩
    intro i j hi hj
    rw [hO i j hi hj, hO 0 j hR hj, hc i j hi hj]

section
variable {W : Wrap} {R C : Nat} {f o G : Nat → Nat → BitVec 32} {b : RBlock IReg}

theorem bcast_bc (hW : WrapOk W) {fs : BitVec 32 → BitVec 32 → M (BitVec 32)}
    {fv : Reg 4 32 → Reg 4 32 → M (Reg 4 32)} {S : BitVec 32 → BitVec 32 → BitVec 32 → Prop}
    (hL : Lift2 fs fv S) (hsh : Shape R C) (hb : Bc2 b R C G)
    (h : ∀ i j, i < R → j < C → S (f i j) (G i j) (o i j)) :
    bcast W fs fv (lanes R C f) b = .ok (lanes R C o) := by
  rcases hb with ⟨rfl, hc⟩ | ⟨rfl, hc⟩
  · exact bcast_col hW hL hsh fun i j hi hj => hc i j hi hj ▸ h i j hi hj
  · exact bcast_row hW hL hsh fun i j hi hj => hc i j hi hj ▸ h i j hi hj

theorem bcastMul_bc (hW : WrapOk W) {m : OvMode} (hsh : Shape R C) (hb : Bc2 b R C G)
    (h : ∀ i j, i < R → j < C → Fx.mul m (f i j) (G i j) = .ok (o i j)) :
    bcastMul W m (lanes R C f) b = .ok (lanes R C o) := by
  rcases hb with ⟨rfl, hc⟩ | ⟨rfl, hc⟩
  · exact bcastMul_col hW hsh fun i j hi hj => hc i j hi hj ▸ h i j hi hj
  · exact bcastMul_row hW hsh fun i j hi hj => hc i j hi hj ▸ h i j hi hj

end

/-! ## The stages on one register -/

theorem lift2_add {W : Wrap} (hW : WrapOk W) (m : OvMode) :
    Lift2 (Fx.add m) (fun a b => .ok (W.O.add a b)) (fun x y z => Fx.add m x y = .ok z) where
  s x y z h := h
  v a b c h := by
    congr 1
    funext l
    rw [hW.add, fxadd_val (h l)]

theorem lift_quantizeDown {W : Wrap} (hW : WrapOk W) (m : OvMode) (o mu sh : BitVec 32) :
    Lift (quantizeDownReg m o mu sh) (quantizeDownVec W o mu sh)
      (fun x y => quantizeDownReg m o mu sh x = .ok y) where
  s x y h := h
  v a c h := by
    unfold quantizeDownVec
    refine rdpot_vec hW (m := m) fun i => ?_
    obtain ⟨h1, h2⟩ := bind_ok_val (h i)
    obtain ⟨h2, h3⟩ := bind_ok_val h2
    rw [hW.mulS, hW.add, hW.dup, ← fxadd_val h1, ← fxmul_val h2]
    exact h3

theorem lift_rdpot {W : Wrap} (hW : WrapOk W) (m : OvMode) (e : Int) :
    Lift (fun x => Fx.rdpot m x e) (fun x => W.O.rdpot x e) (fun x y => Fx.rdpot m x e = .ok y) where
  s x y h := h
  v a c h := rdpot_vec hW h

theorem lift_byFixedPoint (A : VArch) (m : OvMode) (mu sh o : BitVec 32) :
    Lift (byFixedPointReg m mu sh o) (byFixedPointVec A.wrap mu sh o)
      (fun x y => MulSafe A x mu ∧ byFixedPointReg m mu sh o x = .ok y) where
  s x y h := h.2
  v a c h := by
    have hW := wrapOk A
    have hq := fun i => bind_ok_val (h i).2
    unfold byFixedPointVec
    rw [rdpot_vec hW (c := fun i => okVal (Fx.rdpot m (Fx.srdhm (a i) mu) sh.toInt)) (m := m), ok_bind, pure_ok]
    · congr 1
      funext i
      rw [hW.add, hW.dup]
      exact (fxadd_val (hq i).2).symm
    · intro i
      rw [hW.srdhmS, srdhm_vec (by rw [hW.dup]; exact (h i).1), hW.dup]
      exact (hq i).1

theorem lift_byExponent (A : VArch) (m : OvMode) (l r : Int) (mu o : BitVec 32) :
    Lift (byExponentReg m l r mu o) (byExponentVec A.wrap l r mu o)
      (fun x y => (ShlSafe x l ∧ MulSafe A (x <<< l.toNat) mu) ∧ byExponentReg m l r mu o x = .ok y) where
  s x y h := h.2
  v a c h := by
    have hW := wrapOk A
    have hl := fun i => bind_ok_val (h i).2
    have hq := fun i => bind_ok_val (hl i).2
    unfold byExponentVec
    rw [rdpot_vec hW (c := fun i => okVal (Fx.rdpot m (Fx.srdhm (okVal (Fx.shiftLeft (a i) l)) mu) r)) (m := m),
      ok_bind, pure_ok]
    · congr 1
      funext i
      rw [hW.add, hW.dup]
      exact (fxadd_val (hq i).2).symm
    · intro i
      have es := shl_vec hW (hl i).1 (h i).1.1
      have ev := shl_val (hl i).1 (h i).1.1
      rw [hW.srdhmS, srdhm_vec (by rw [hW.dup, es, ev]; exact (h i).1.2), hW.dup, es]
      exact (hq i).1

theorem lift_clamp {W : Wrap} (hW : WrapOk W) (lo hi : BitVec 32) :
    Lift (fun x => pure (min32 (max32 x lo) hi)) (fun x => .ok (clampVec W lo hi x))
      (fun x y => (pure (min32 (max32 x lo) hi) : M (BitVec 32)) = .ok y) where
  s x y h := h
  v a c h := by
    congr 1
    funext i
    unfold clampVec
    rw [hW.min, hW.max, hW.dup, hW.dup]
    exact Except.ok.inj (h i)

theorem tanh_to_wrap {m : OvMode} {x y : BitVec 32} (h : Fx.tanh m 3 x = .ok y) :
    Fx.tanh .wrap 3 x = .ok y := by
  by_cases hx : x.toInt = -2 ^ 31
  · cases m with
    | wrap => exact h
    | trap =>
      have e : x = BitVec.ofInt 32 (-2 ^ 31) := by rw [← hx, BitVec.ofInt_toInt]
      rw [e, Fx.C38_tanh_undefined] at h
      cases h
  · obtain ⟨hin, hofi⟩ := Fx.raw_cases x
    have h' := (Fx.in32_iff _).1 hin
    have e := Fx.tanh_I (m := m) (ib := 3) (by omega) hin (Or.inr (by omega))
    have e' := Fx.tanh_I (m := .wrap) (ib := 3) (by omega) hin (Or.inl rfl)
    rw [← hofi] at e e'
    rw [show Fx.tanh m 3 x = _ from e] at h
    rw [show Fx.tanh .wrap 3 x = _ from e', Except.ok.inj h]

theorem tanh_ne_min {x y : BitVec 32} (h : Fx.tanh .wrap 3 x = .ok y) : y.toInt ≠ -2 ^ 31 := by
  obtain ⟨r, e, h1, _⟩ := Fx.C38_tanh_partial .wrap 3 (by omega) x (Or.inl rfl)
  rw [show Fx.tanh .wrap 3 x = _ from e] at h
  rw [← Except.ok.inj h]
  omega

theorem tanh_vec (A : VArch) (a : Reg 4 32) : ∃ r, Gen.tanh A.wrap.O 3 a = .ok r ∧
    ∀ i, Fx.tanh .wrap 3 (a i) = .ok (r i) := by
  cases A with
  | sse => exact Simd.C34_tanh_lanes (A := ⟨4, Sse.ops32⟩) (by simp [Simd.vec32]) (ib := 3) (by omega) a
  | neon => exact Simd.C34_tanh_lanes (A := ⟨4, Neon.ops32⟩) (by simp [Simd.vec32]) (ib := 3) (by omega) a
  | msa => exact Simd.C34_tanh_lanes (A := ⟨4, Msa.ops32⟩) (by simp [Simd.vec32]) (ib := 3) (by omega) a

theorem fxsub_val {m : OvMode} {a b c : BitVec 32} (h : Fx.sub m a b = .ok c) : c = a - b := by
  rw [retW_val h]
  apply BitVec.eq_of_toInt_eq
  rw [BitVec.toInt_ofInt, BitVec.toInt_sub]

theorem lift_tanh (A : VArch) (m : OvMode) (p : TanhParams) :
    Lift (tanhReg m p) (tanhVec A.wrap m p)
      (fun x y => (Stage.tanh p).Safe A 0 0 x ∧ tanhReg m p x = .ok y) where
  s x y h := h.2
  v a c h := by
    have hW := wrapOk A
    have h1 := fun i => bind_ok_val (h i).2
    have h2 := fun i => bind_ok_val (h1 i).2
    have h3 := fun i => bind_ok_val (h2 i).2
    have h4 := fun i => bind_ok_val (h3 i).2
    have h5 := fun i => bind_ok_val (h4 i).2
    have h6 := fun i => bind_ok_val (h5 i).2
    have h7 := fun i => bind_ok_val (h6 i).2
    have h8 := fun i => bind_ok_val (h7 i).2
    have h9 := fun i => bind_ok_val (h8 i).2
    have h10 := fun i => bind_ok_val (h9 i).2
    unfold tanhVec
    rw [(h1 0).1, ok_bind, (h2 0).1, ok_bind, (h3 0).1, ok_bind, (h4 0).1, ok_bind, (h5 0).1, ok_bind]
    dsimp only
    obtain ⟨t, et, ht⟩ := tanh_vec A (A.wrap.O.shiftLeft (A.wrap.O.srdhm (A.wrap.O.sub a (A.wrap.O.dup p.zero))
      (A.wrap.O.dup p.inverseAmplitude)) (28 - p.inverseNegExponent))
    rw [et, ok_bind, pure_ok]
    congr 1
    funext i
    have hy := Except.ok.inj (h10 i).2
    have hs := (h i).1
    have ea8 := fxmul_val (h1 i).1
    have ecm := fxsub_val (h2 i).1
    have ecM := fxadd_val (h3 i).1
    have ec := fxsub_val (h6 i).1
    have emask1 : Spec.IsMask (A.wrap.O.maskIfLessThanOrEqual a
        (A.wrap.O.dup (okVal (Fx.sub m p.zero (okVal (Fx.mul m 8 p.amplitude))))) i) := by
      rw [hW.lanes.maskIfLessThanOrEqual, (Fx.C33_masks (by decide) _ _).2.2.2.2.2.2.2]
      split
      · exact Or.inr rfl
      · exact Or.inl rfl
    have emask2 : Spec.IsMask (A.wrap.O.maskIfGreaterThanOrEqual a
        (A.wrap.O.dup (okVal (Fx.add m p.zero (okVal (Fx.mul m 8 p.amplitude))))) i) := by
      rw [hW.lanes.maskIfGreaterThanOrEqual, (Fx.C33_masks (by decide) _ _).2.2.2.2.2.1]
      split
      · exact Or.inr rfl
      · exact Or.inl rfl
    rw [hW.lanes.selectUsingMask _ _ _ _ emask1, hW.lanes.selectUsingMask _ _ _ _ emask2,
      hW.lanes.maskIfLessThanOrEqual, hW.lanes.maskIfGreaterThanOrEqual, hW.dup, hW.dup, hW.dup, hW.dup]
    rw [← hy]
    rw [(Fx.C33_masks (by decide) _ _).2.2.2.2.2.2.2, (Fx.C33_masks (by decide) _ _).2.2.2.2.2.1]
    by_cases q1 : (a i).toInt ≤ (okVal (Fx.sub m p.zero (okVal (Fx.mul m 8 p.amplitude)))).toInt
    · rw [if_pos q1, Fx.select_allOnes, Fx.select_allOnes]
    rw [if_neg q1]
    by_cases q2 : (a i).toInt ≥ (okVal (Fx.add m p.zero (okVal (Fx.mul m 8 p.amplitude)))).toInt
    · rw [if_pos q2, Fx.select_allOnes, Fx.select_allOnes]
    rw [if_neg q2, Fx.select_zero, Fx.select_zero]
    rw [Fx.select_zero, Fx.select_zero]
    rw [ecm, ea8] at q1
    rw [ecM, ea8] at q2
    have hsafe : MulSafe A (a i - p.zero) p.inverseAmplitude ∧
        ShlSafe (Fx.srdhm (a i - p.zero) p.inverseAmplitude) (28 - p.inverseNegExponent) := by
      rcases hs with hs | hs | hs
      · exact absurd hs q1
      · exact absurd hs q2
      · exact hs
    have esub : A.wrap.O.sub a (A.wrap.O.dup p.zero) i = a i - p.zero :=
      (fxsub_val (hW.lanes.sub a (A.wrap.O.dup p.zero) i)).trans (by rw [hW.dup])
    have ef : A.wrap.O.srdhm (A.wrap.O.sub a (A.wrap.O.dup p.zero)) (A.wrap.O.dup p.inverseAmplitude) i =
        Fx.srdhm (a i - p.zero) p.inverseAmplitude := by
      rw [srdhm_vec (by rw [esub, hW.dup]; exact hsafe.1), esub, hW.dup]
    have e7 := (h7 i).1
    rw [ec] at e7
    have esh := shl_vec hW (a := A.wrap.O.srdhm (A.wrap.O.sub a (A.wrap.O.dup p.zero))
      (A.wrap.O.dup p.inverseAmplitude)) (i := i) (by rw [ef]; exact e7) (by rw [ef]; exact hsafe.2)
    have hti := ht i
    rw [esh] at hti
    have e8 := (h8 i).1
    rw [ec] at e8
    have e8' := tanh_to_wrap e8
    have et' := Except.ok.inj (hti.symm.trans e8')
    have eo : A.wrap.O.srdhm t (A.wrap.O.dup p.amplitudeNormalized) i =
        Fx.srdhm (t i) p.amplitudeNormalized := by
      rw [srdhm_vec (by intro _ hh; exact tanh_ne_min hti hh.1), hW.dup]
    have e9 := (h9 i).1
    have e10 := fxadd_val (h10 i).1
    rw [hW.add, hW.dup, e10]
    congr 1
    refine shr_vec hW ?_
    rw [eo, et']
    rw [ec] at e9 ⊢
    exact e9

/-! ## The stages on a block -/

theorem stageEval_ok (A : VArch) (m : OvMode) (s : Stage) {R C row col : Nat} (hsh : Shape R C)
    {f g : Nat → Nat → BitVec 32} (hsup : s.Supports A)
    (hs : ∀ i j, i < R → j < C → s.Safe A (row + i) (col + j) (f i j))
    (h : ∀ i j, i < R → j < C → s.scalar m (row + i) (col + j) (f i j) = .ok (g i j)) :
    stageEval A.wrap m s (lanes R C f) row col = .ok (lanes R C g) := by
  have hW := wrapOk A
  have hR0 : 0 < R := by rcases hsh.1 with h | h | h <;> omega
  have hC0 : 0 < C := by rcases hsh.2 with h | h <;> omega
  cases s with
  | quantizeDown o mu sh => exact map_lanes (lift_quantizeDown hW m o mu sh) h
  | byFixedPoint mu sh o =>
    exact map_lanes (lift_byFixedPoint A m mu sh o) fun i j hi hj => ⟨hs i j hi hj, h i j hi hj⟩
  | clamp lo hi => exact map_lanes (lift_clamp hW lo hi) h
  | tanh p => exact map_lanes (lift_tanh A m p) fun i j hi hj => ⟨hs i j hi hj, h i j hi hj⟩
  | byExponent mu e o =>
    simp only [stageEval, Stage.scalar] at h ⊢
    have h0 := bind_ok_val (h 0 0 hR0 hC0)
    rw [h0.1, ok_bind]
    refine map_lanes (lift_byExponent A m _ _ mu o) fun i j hi hj => ⟨hs i j hi hj, ?_⟩
    have := h i j hi hj
    rw [h0.1, ok_bind] at this
    exact this
  | bias v =>
    cases v with
    | dup sh x n => exact absurd hsup id
    | map sh d b n =>
      simp only [stageEval, Stage.scalar, rows_lanes, cols_lanes] at h ⊢
      obtain ⟨k, e1, hk⟩ := loadV (row := row) (col := col) hsh
        (fun i j hi hj => (bind_ok_val (h i j hi hj)).1)
      rw [show loadForBroadcasting R C (OffsetVec.map sh d b n)
        (posOf (OffsetVec.map sh d b n).shape row col) = _ from e1, ok_bind]
      exact bcast_bc hW (lift2_add hW m) hsh hk fun i j hi hj => (bind_ok_val (h i j hi hj)).2
  | quantizeDownPC sh o mu shift =>
    simp only [stageEval, Stage.scalar, rows_lanes, cols_lanes, quantizeDownReg] at h ⊢
    have hmu := fun i j hi hj => bind_ok_val (h i j hi hj)
    have ho := fun i j hi hj => bind_ok_val (hmu i j hi hj).2
    have ha := fun i j hi hj => bind_ok_val (ho i j hi hj).2
    have hm := fun i j hi hj => bind_ok_val (ha i j hi hj).2
    obtain ⟨b1, e1, k1⟩ := loadV hsh (fun i j hi hj => (hmu i j hi hj).1)
    obtain ⟨b2, e2, k2⟩ := loadV hsh (fun i j hi hj => (ho i j hi hj).1)
    rw [show loadForBroadcasting R C (mu.vec sh) (posOf sh row col) = _ from e1, ok_bind,
      show loadForBroadcasting R C (o.vec sh) (posOf sh row col) = _ from e2, ok_bind,
      bcast_bc hW (lift2_add hW m) hsh k2 fun i j hi hj => (ha i j hi hj).1, ok_bind,
      bcastMul_bc hW hsh k1 fun i j hi hj => (hm i j hi hj).1, ok_bind]
    exact map_lanes (lift_rdpot hW m _) fun i j hi hj => (hm i j hi hj).2
  | byExponentPC sh mu e o =>
    have hA : A = .neon := hsup
    subst hA
    simp only [stageEval, Stage.scalar, rows_lanes, cols_lanes, byExponentReg] at h ⊢
    have he := fun i j hi hj => bind_ok_val (h i j hi hj)
    have hmu := fun i j hi hj => bind_ok_val (he i j hi hj).2
    have hne := fun i j hi hj => bind_ok_val (hmu i j hi hj).2
    have hl := fun i j hi hj => bind_ok_val (hne i j hi hj).2
    have hq := fun i j hi hj => bind_ok_val (hl i j hi hj).2
    obtain ⟨b1, e1, k1⟩ := loadV hsh (fun i j hi hj => (he i j hi hj).1)
    obtain ⟨b2, e2, k2⟩ := loadV hsh (fun i j hi hj => (hmu i j hi hj).1)
    obtain ⟨b3, e3, k3⟩ := k1.map hR0 hC0 (fs := fun e => (pure (max32 e 0) : M (BitVec 32)))
      (fv := fun e => VArch.neon.wrap.maxS e 0) (F := fun e => max32 e 0) (S := fun e y => y = max32 e 0)
      (O := fun i j => max32 (okVal ((e.vec sh).read (posOf sh (row + i) (col + j)))) 0)
      ⟨fun x y h => by rw [h]; rfl, fun a c h => by
        show Except.ok (maxs a (splat 0)) = _
        congr 1
        funext i
        exact (h i).symm⟩ (fun i j hi hj => rfl) (fun i j hi hj => rfl)
    obtain ⟨b4, e4, k4⟩ := k1.map hR0 hC0 (fs := fun e => (do
          let ne ← Fx.neg m e
          pure (max32 ne 0) : M (BitVec 32)))
      (fv := fun e => VArch.neon.wrap.maxS (VArch.neon.wrap.O.neg e) 0)
      (F := fun e => max32 (BitVec.ofInt 32 (-e.toInt)) 0)
      (S := fun e y => Fx.neg m e = .ok (okVal (Fx.neg m e)) ∧ y = max32 (okVal (Fx.neg m e)) 0)
      (O := fun i j => max32 (okVal (Fx.neg m
        (okVal ((e.vec sh).read (posOf sh (row + i) (col + j)))))) 0)
      ⟨fun x y h => by rw [h.2, h.1]; rfl, fun a c h => by
        show Except.ok (maxs (VArch.neon.wrap.O.neg a) (splat 0)) = _
        congr 1
        funext i
        rw [(h i).2, retW_val (h i).1, ← hW.neg a i]
        rfl⟩
      (fun i j hi hj => ⟨(hne i j hi hj).1, rfl⟩)
      (fun i j hi hj => by rw [retW_val (hne i j hi hj).1])
    have L1 : Lift2 (fun x e => Fx.shiftLeft x e.toInt) VArch.neon.wrap.shiftLeftV
        (fun x e z => ShlSafe x e.toInt ∧ Fx.shiftLeft x e.toInt = .ok z) :=
      ⟨fun x y z h => h.2, fun a b c h => by
        show Except.ok (vshl a b) = _
        congr 1
        funext i
        rw [← shl_vec hW (h i).2 (h i).1]
        show _ = vshl a (Neon.dupInt (b i).toInt) i
        unfold Neon.dupInt
        rw [BitVec.ofInt_toInt]
        rfl⟩
    have L2 : Lift2 (fun x y => .ok (Fx.srdhm x y)) (fun x y => .ok (VArch.neon.wrap.O.srdhm x y))
        (fun x y z => z = Fx.srdhm x y) :=
      ⟨fun x y z h => by rw [h], fun a b c h => by
        congr 1
        funext i
        rw [h i]
        exact srdhm_vec (A := .neon) (fun hh => by cases hh)⟩
    have L3 : Lift2 (fun x e => Fx.rdpot m x e.toInt) VArch.neon.wrap.rdpotV
        (fun x e z => Fx.rdpot m x e.toInt = .ok z) :=
      ⟨fun x y z h => h, fun a b c h => by
        show Except.ok (Neon.rdpotVec a b) = _
        congr 1
        funext i
        have hr := rdpot_range (h i)
        have := Simd.C34_neon_rdpotVec a b i hr.1 hr.2
        rw [rdpot_to_wrap (h i)] at this
        exact (Except.ok.inj this).symm⟩
    have L4 : Lift (fun x => Fx.add m x o) (fun x => .ok (VArch.neon.wrap.O.add x (VArch.neon.wrap.O.dup o)))
        (fun x y => Fx.add m x o = .ok y) :=
      ⟨fun x y h => h, fun a c h => by
        congr 1
        funext i
        rw [hW.add, hW.dup, fxadd_val (h i)]⟩
    rw [show loadForBroadcasting R C (e.vec sh) (posOf sh row col) = _ from e1, ok_bind, ok_bind,
      show loadForBroadcasting R C (mu.vec sh) (posOf sh row col) = _ from e2, ok_bind, e3, ok_bind, e4, ok_bind,
      bcast_bc hW L1 hsh k3 (fun i j hi hj => ⟨?_, (hl i j hi hj).1⟩), ok_bind,
      bcast_bc hW L2 hsh k2 (fun i j hi hj => rfl), ok_bind,
      bcast_bc hW L3 hsh k4 (fun i j hi hj => (hq i j hi hj).1), ok_bind]
    · exact map_lanes L4 fun i j hi hj => (hq i j hi hj).2
    · have := hs i j hi hj _ (he i j hi hj).1
      rw [max32_toInt, show (0 : BitVec 32).toInt = 0 from rfl, max_comm]
      exact this

theorem evalStages_ok (A : VArch) (m : OvMode) (l : List Stage) : ∀ {R C row col : Nat}, Shape R C →
    ∀ {f g : Nat → Nat → BitVec 32}, (∀ s ∈ l, s.Supports A) →
    (∀ i j, i < R → j < C → safeStages A m l (row + i) (col + j) (f i j)) →
    (∀ i j, i < R → j < C → scalarStages m l (row + i) (col + j) (f i j) = .ok (g i j)) →
    evalStages A.wrap m l (lanes R C f) row col = .ok (lanes R C g) := by
  induction l with
  | nil =>
    intro R C row col hsh f g _ _ h
    simp only [evalStages, scalarStages, pure_ok] at h ⊢
    congr 1
    exact lanes_congr fun i j hi hj => Except.ok.inj (h i j hi hj)
  | cons s l ih =>
    intro R C row col hsh f g hsup hs h
    simp only [evalStages, scalarStages] at h ⊢
    have hk := fun i j hi hj => bind_ok_val (h i j hi hj)
    rw [stageEval_ok A m s hsh (hsup s (List.mem_cons_self ..)) (fun i j hi hj => (hs i j hi hj).1)
      (fun i j hi hj => (hk i j hi hj).1), ok_bind]
    exact ih hsh (fun s hs => hsup s (List.mem_cons_of_mem _ hs))
      (fun i j hi hj => (hs i j hi hj).2 _ (hk i j hi hj).1) fun i j hi hj => (hk i j hi hj).2

end Gemmlowp.OutSimd
