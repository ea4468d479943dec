import Verif.TanhStageProof
import Verif.PropsOutSimd
/-!
# The tanh output stage: evaluation
-/
namespace Gemmlowp.TanhStage

open Fx Consts

theorem shl_I {x : Int} (hx : In32 x) {k : Nat} (hk : k ≤ 30) :
    Fx.shiftLeft (BitVec.ofInt 32 x) (k : Int) = .ok (BitVec.ofInt 32 (sat (x * 2 ^ k))) := by
  unfold Fx.shiftLeft
  rw [if_neg (by omega), toI hx, Int.toNat_natCast]
  unfold sat Spec.clampTo minW maxW
  norm_num

theorem shr_I {x : Int} (hx : In32 x) {k : Nat} (hk : k < 32) :
    Fx.shiftRight (BitVec.ofInt 32 x) (k : Int) = .ok (BitVec.ofInt 32 (x / 2 ^ k)) := by
  unfold Fx.shiftRight
  rw [if_neg (by omega), Int.toNat_natCast]
  congr 1
  apply eq_ofInt
  rw [toInt_sshiftRight', toI hx]

theorem mul8_I {m : OvMode} {a : Int} (h1 : 1 ≤ a) (h2 : a < 268435456) :
    Fx.mul m 8 (BitVec.ofInt 32 a) = .ok (BitVec.ofInt 32 (8 * a)) := by
  unfold Fx.mul
  rw [toI (in32 (by omega)), show (8 : BitVec 32).toInt = 8 from rfl, retW_ok (in32 (by omega))]

theorem sm_in {a b : Int} (ha : In32 a) (hb0 : 0 ≤ b) (hb : b ≤ 2147483647) : In32 (sm a b) := by
  rw [in32_iff] at ha
  have h1 := mul_le_mul_of_nonneg_right (show -2147483648 ≤ a by omega) hb0
  have h2 := mul_le_mul_of_nonneg_right (show a ≤ 2147483647 by omega) hb0
  apply in32
  unfold sm
  omega

/-- The parameters that the constructor computes. -/
def params (z a R : Int) (e k : Nat) : TanhParams :=
  ⟨BitVec.ofInt 32 z, BitVec.ofInt 32 a, BitVec.ofInt 32 R, e, BitVec.ofInt 32 (a * 2 ^ (30 - k)), ((k + 1 : Nat) : Int)⟩

variable {a R z : Int} {e k : Nat}

/-- The value of the stage, with `c` for the difference of the input and the zero point. -/
def out (z a R : Int) (e k : Nat) (x c : Int) : Int :=
  if x ≤ z - 8 * a then z - a else if z + 8 * a ≤ x then z + a else z + dist a k (tanhI 3 (arg R e c))

theorem out_bounds (h : Consts a R e k) (x c : Int) : z - a ≤ out z a R e k x c ∧ out z a R e k x c ≤ z + a := by
  have hin : In32 (arg R e c) := arg_in c
  obtain ⟨b1, b2, -, -⟩ := tanhI_bounds (ib := 3) (by omega) hin
  have := h.dist_bounds b1 b2
  have := h.pos
  unfold out
  split <;> [skip; split] <;> omega

theorem masks_select {x cm cM : Int} (hx : In32 x) (hm : In32 cm) (hM : In32 cM) (om oM y : BitVec 32) :
    selectUsingMask (maskIfLessThanOrEqual (BitVec.ofInt 32 x) (BitVec.ofInt 32 cm)) om
      (selectUsingMask (maskIfGreaterThanOrEqual (BitVec.ofInt 32 x) (BitVec.ofInt 32 cM)) oM y) =
    if x ≤ cm then om else if cM ≤ x then oM else y := by
  rw [(C33_masks (by decide) _ _).2.2.2.2.2.2.2, (C33_masks (by decide) _ _).2.2.2.2.2.1, toI hx, toI hm, toI hM,
    select_I, select_I]

theorem tanhReg_eval {m : OvMode} (h : Consts a R e k) (hz1 : -2147483648 ≤ z - 8 * a) (hz2 : z + 8 * a < 2147483648)
    {x c : Int} (hx : In32 x) (hci : In32 c) (hc : Fx.sub m (BitVec.ofInt 32 x) (BitVec.ofInt 32 z) = .ok (BitVec.ofInt 32 c))
    (hm : m = .wrap ∨ arg R e c ≠ -2147483648) :
    tanhReg m (params z a R e k) (BitVec.ofInt 32 x) = .ok (BitVec.ofInt 32 (out z a R e k x c)) := by
  have hpos := h.pos
  have hlt := h.lt
  have zi : In32 z := in32 (by omega)
  have hr2 := h.r2
  have hr3 := h.r3
  have hR : In32 R := in32 (by omega)
  have hn := h.n_bounds
  have ha := (in32_iff _).1 (arg_in (R := R) (e := e) c)
  obtain ⟨b1, b2, -, -⟩ := tanhI_bounds (ib := 3) (by omega) (arg_in (R := R) (e := e) c)
  obtain ⟨d1, d2⟩ := h.dist_bounds b1 b2
  obtain ⟨s1, s2⟩ := h.scaled_bounds b1 b2
  unfold tanhReg params
  dsimp only
  rw [mul8_I hpos hlt, ok_bind, sub_I zi (in32 (by omega)) (in32 (by omega)), ok_bind,
    add_I zi (in32 (by omega)) (in32 (by omega)), ok_bind, sub_I zi (in32 (by omega)) (in32 (by omega)), ok_bind,
    add_I zi (in32 (by omega)) (in32 (by omega)), ok_bind, hc, ok_bind, srdhm_I hci hR (by omega)]
  rw [show (28 - (e : Int)) = ((28 - e : Nat) : Int) by have := h.e_le; omega,
    shl_I (sm_in hci (by omega) hr3) (by omega), ok_bind]
  change (Fx.tanh m 3 (BitVec.ofInt 32 (arg R e c)) >>= _) = _
  rw [show Fx.tanh m 3 (BitVec.ofInt 32 (arg R e c)) = _ from tanh_I (ib := 3) (by omega) (arg_in c)
    (hm.imp id (fun h => by omega)), ok_bind, srdhm_I (in32 (by omega)) (in32 (by omega)) (by omega)]
  rw [show (31 - ((k + 1 : Nat) : Int)) = ((30 - k : Nat) : Int) by have := h.k_le; omega,
    shr_I (in32 (by omega)) (by omega), ok_bind]
  change (Fx.add m _ (BitVec.ofInt 32 (dist a k (tanhI 3 (arg R e c)))) >>= _) = _
  rw [add_I zi (in32 (by omega)) (in32 (by omega)), ok_bind, pure_ok,
    masks_select hx (in32 (by omega)) (in32 (by omega))]
  unfold out
  split <;> [skip; split] <;> rfl

/-- The stage is undefined where the argument of `tanh` is the least int32. -/
theorem tanhReg_undefined (h : Consts a R e k) (hz1 : -2147483648 ≤ z - 8 * a) (hz2 : z + 8 * a < 2147483648)
    {x : Int} (hx : In32 x) (hci : In32 (x - z)) (hm : arg R e (x - z) = -2147483648) :
    tanhReg .trap (params z a R e k) (BitVec.ofInt 32 x) = .error .overflow := by
  have hpos := h.pos
  have hlt := h.lt
  have zi : In32 z := in32 (by omega)
  have hr2 := h.r2
  have hr3 := h.r3
  have hR : In32 R := in32 (by omega)
  unfold tanhReg params
  dsimp only
  rw [mul8_I hpos hlt, ok_bind, sub_I zi (in32 (by omega)) (in32 (by omega)), ok_bind,
    add_I zi (in32 (by omega)) (in32 (by omega)), ok_bind, sub_I zi (in32 (by omega)) (in32 (by omega)), ok_bind,
    add_I zi (in32 (by omega)) (in32 (by omega)), ok_bind, sub_I hx zi hci, ok_bind, srdhm_I hci hR (by omega)]
  rw [show (28 - (e : Int)) = ((28 - e : Nat) : Int) by have := h.e_le; omega,
    shl_I (sm_in hci (by omega) hr3) (by omega), ok_bind]
  change (Fx.tanh .trap 3 (BitVec.ofInt 32 (arg R e (x - z))) >>= _) = _
  rw [hm]
  rfl

/-- Where `x - z` leaves int32, the cutoffs decide. -/
theorem out_far (hz1 : -2147483648 ≤ z - 8 * a) (hz2 : z + 8 * a < 2147483648)
    {x : Int} (c c' : Int) (hc : ¬ In32 (x - z)) : out z a R e k x c = out z a R e k x c' := by
  rw [in32_iff] at hc
  unfold out
  by_cases h1 : x ≤ z - 8 * a
  · rw [if_pos h1, if_pos h1]
  · rw [if_neg h1, if_neg h1, if_pos (by omega), if_pos (by omega)]

/-- In arithmetic modulo 2^32 the stage has a value everywhere. -/
theorem tanhReg_wrap (h : Consts a R e k) (hz1 : -2147483648 ≤ z - 8 * a) (hz2 : z + 8 * a < 2147483648)
    {x : Int} (hx : In32 x) :
    tanhReg .wrap (params z a R e k) (BitVec.ofInt 32 x) = .ok (BitVec.ofInt 32 (out z a R e k x (x - z))) := by
  have zi : In32 z := in32 (by have := h.pos; omega)
  by_cases hc : In32 (x - z)
  · exact tanhReg_eval h hz1 hz2 hx hc (sub_I hx zi hc) (Or.inl rfl)
  · have e1 : Fx.sub .wrap (BitVec.ofInt 32 x) (BitVec.ofInt 32 z) =
        .ok (BitVec.ofInt 32 (BitVec.ofInt 32 (x - z)).toInt) := by
      unfold Fx.sub
      rw [toI hx, toI zi, BitVec.ofInt_toInt]
      rfl
    rw [tanhReg_eval h hz1 hz2 hx (raw_cases _).1 e1 (Or.inl rfl), out_far hz1 hz2 _ (x - z) hc]

/-- The stage is accurate wherever it has a value. -/
theorem out_acc (h : Consts a R e k) (x : Int) :
    -(2 + (a : ℝ) / 2 ^ 21) ≤ (out z a R e k x (x - z) : ℝ) - (z + a * Real.tanh ((x - z : Int) / (a : ℝ))) ∧
    (out z a R e k x (x - z) : ℝ) - (z + a * Real.tanh ((x - z : Int) / (a : ℝ))) ≤ 1 + (a : ℝ) / 2 ^ 21 := by
  have hA : (0 : ℝ) < a := by have := h.pos; exact_mod_cast (by omega : 0 < a)
  unfold out
  by_cases h1 : x ≤ z - 8 * a
  · rw [if_pos h1]
    have hv : (8 : ℝ) ≤ -((x - z : Int) / (a : ℝ)) := by
      rw [← neg_div, le_div_iff₀ hA]
      exact_mod_cast (by omega : 8 * a ≤ -(x - z))
    have t1 := tanh_eight hv
    rw [Real.tanh_neg] at t1
    have t2 := (abs_le.1 (Real.abs_tanh_lt_one ((x - z : Int) / (a : ℝ))).le).1
    generalize Real.tanh ((x - z : Int) / (a : ℝ)) = τ at *
    push_cast
    norm_num at t1 ⊢
    constructor <;> nlinarith
  rw [if_neg h1]
  by_cases h2 : z + 8 * a ≤ x
  · rw [if_pos h2]
    have hv : (8 : ℝ) ≤ (x - z : Int) / (a : ℝ) := by
      rw [le_div_iff₀ hA]
      exact_mod_cast (by omega : 8 * a ≤ x - z)
    have t1 := tanh_eight hv
    have t2 := (abs_le.1 (Real.abs_tanh_lt_one ((x - z : Int) / (a : ℝ))).le).2
    generalize Real.tanh ((x - z : Int) / (a : ℝ)) = τ at *
    push_cast
    norm_num at t1 ⊢
    constructor <;> nlinarith
  rw [if_neg h2]
  have := h.dist_acc (c := x - z) (by omega) (by omega)
  push_cast at this ⊢
  constructor <;> linarith

/-! ## Vectors -/

open OutSimd in
/-- Only next to the upper cutoff do vectors and scalars differ. -/
theorem tanh_safe (A : VArch) (h : Consts a R e k) (hz1 : -2147483648 ≤ z - 8 * a)
    (hz2 : z + 8 * a < 2147483648) {X : BitVec 32} (hXi : X.toInt ≤ z + 8 * a - 3 ∨ z + 8 * a ≤ X.toInt) (r c : Nat) :
    (Stage.tanh (params z a R e k)).Safe A r c X := by
  have hpos := h.pos
  have hlt := h.lt
  have zi : In32 z := in32 (by omega)
  have hr2 := h.r2
  have hr3 := h.r3
  have hR : In32 R := in32 (by omega)
  have hx := raw_cases X
  have hxi := (in32_iff _).1 hx.1
  show X.toInt ≤ (BitVec.ofInt 32 z - 8 * BitVec.ofInt 32 a).toInt ∨
    (BitVec.ofInt 32 z + 8 * BitVec.ofInt 32 a).toInt ≤ X.toInt ∨
    (MulSafe A (X - BitVec.ofInt 32 z) (BitVec.ofInt 32 R) ∧
      ShlSafe (Fx.srdhm (X - BitVec.ofInt 32 z) (BitVec.ofInt 32 R)) (28 - (e : Int)))
  have m8 := fxmul_val (mul8_I (m := .wrap) hpos hlt)
  rw [← m8, ← fxsub_val (sub_I (m := .wrap) zi (b := 8 * a) (in32 (by omega)) (in32 (by omega))),
    ← fxadd_val (add_I (m := .wrap) zi (b := 8 * a) (in32 (by omega)) (in32 (by omega))),
    toI (in32 (by omega)), toI (in32 (by omega))]
  by_cases q1 : X.toInt ≤ z - 8 * a
  · exact Or.inl q1
  by_cases q2 : z + 8 * a ≤ X.toInt
  · exact Or.inr (Or.inl q2)
  refine Or.inr (Or.inr ?_)
  have hc : In32 (X.toInt - z) := in32 (by omega)
  have es : X - BitVec.ofInt 32 z = BitVec.ofInt 32 (X.toInt - z) := by
    have := fxsub_val (sub_I (m := .wrap) hx.1 zi hc)
    rw [this, ← hx.2]
  rw [es]
  refine ⟨fun _ hh => ?_, ?_⟩
  · rw [toI hR] at hh
    omega
  · rw [srdhm_I hc hR (by omega)]
    unfold ShlSafe
    have e3 := h.e_le
    have hsi := sm_in hc (by omega) hr3
    have u1 := h.sm_lt (c := X.toInt - z) (by omega)
    have u2 := h.le_sm (c := X.toInt - z) (by omega)
    rw [toI hsi, show (28 - (e : Int)).toNat = 28 - e by omega]
    have hp : (0 : Int) < 2 ^ (28 - e) := by positivity
    have v1 := mul_lt_mul_of_pos_right u1 hp
    have v2 := mul_le_mul_of_nonneg_right u2 hp.le
    rw [Int.neg_mul, h.shl_pow] at v2
    rw [h.shl_pow] at v1
    omega

open OutSimd in
/-- The value of the stage on a vector, entry by entry: as on scalars, except next to the upper cutoff. -/
theorem tanhVec_eval (A : VArch) {m : OvMode} (h : Consts a R e k) (hz1 : -2147483648 ≤ z - 8 * a)
    (hz2 : z + 8 * a < 2147483648) {X Y : Reg 4 32} (hX : ∀ i, (X i).toInt ≤ z + 8 * a - 3 ∨ z + 8 * a ≤ (X i).toInt)
    (hY : ∀ i, Y i = BitVec.ofInt 32 (out z a R e k (X i).toInt ((X i).toInt - z))) :
    tanhVec A.wrap m (params z a R e k) X = .ok Y := by
  have hpos := h.pos
  have hlt := h.lt
  have zi : In32 z := in32 (by omega)
  have hr2 := h.r2
  have hr3 := h.r3
  have hR : In32 R := in32 (by omega)
  -- the five operations of the constructor are the same in both kinds of arithmetic
  have ind : tanhVec A.wrap m (params z a R e k) = tanhVec A.wrap .wrap (params z a R e k) := by
    funext X
    unfold tanhVec params
    dsimp only
    rw [mul8_I hpos hlt, ok_bind, sub_I zi (in32 (by omega)) (in32 (by omega)), ok_bind,
      add_I zi (in32 (by omega)) (in32 (by omega)), ok_bind, sub_I zi (in32 (by omega)) (in32 (by omega)), ok_bind,
      add_I zi (in32 (by omega)) (in32 (by omega)), ok_bind]
    rw [mul8_I hpos hlt, ok_bind, sub_I zi (in32 (by omega)) (in32 (by omega)), ok_bind,
      add_I zi (in32 (by omega)) (in32 (by omega)), ok_bind, sub_I zi (in32 (by omega)) (in32 (by omega)), ok_bind,
      add_I zi (in32 (by omega)) (in32 (by omega)), ok_bind]
  rw [ind]
  refine (lift_tanh A .wrap _).v X Y fun i => ⟨?_, ?_⟩
  · exact tanh_safe A h hz1 hz2 (hX i) 0 0
  · have hx := raw_cases (X i)
    rw [hY, hx.2, toI hx.1]
    exact tanhReg_wrap h hz1 hz2 hx.1

end Gemmlowp.TanhStage
