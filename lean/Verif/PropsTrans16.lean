import Verif.AccProof16
import Verif.PropsSimdTrans
/-!
# Properties C36-C38 and C50-C52 for 16-bit raw values

A raw `int16_t` value `a` with `ib` integer bits stands for `a / 2^(15 - ib)`; results with no
integer bits stand for `r / 2^15`.  For this type C++ arithmetic is `m = .wrap`, like that of vector
instructions: operands are promoted to `int` and the result is narrowed.  The theorems for
`m = .trap` add that no narrowing changes a value, except at the least input.  With few integer bits the results near zero are on the wrong side: `logistic` of a
small positive number may be below one half, `tanh` of one negative (finding F18).
-/
namespace Gemmlowp.Fx16
open Gemmlowp.Fx (expNeg logistic tanh)

theorem raw_cases (a : BitVec 16) : In16 a.toInt ∧ a = BitVec.ofInt 16 a.toInt :=
  ⟨inW_toInt (by decide) a, (BitVec.ofInt_toInt).symm⟩

/-- **C36** for 16 bits and up to 13 integer bits: no fault, a value in `[0, 1]`, `1` (the largest
representable number) at 0 and, from two integer bits on, only there, and zero for more than 5
integer bits and arguments below -32. -/
theorem C36_exp16 (m : OvMode) (ib : Nat) (hib : ib ≤ 13) (a : BitVec 16) (ha : a.toInt ≤ 0) :
    ∃ r, expNeg m ib a = .ok r ∧ 0 ≤ r.toInt ∧ (a.toInt = 0 → r.toInt = 2 ^ 15 - 1) ∧
      (2 ≤ ib → r.toInt = 2 ^ 15 - 1 → a.toInt = 0) ∧
      (5 < ib → a.toInt < -32 * 2 ^ (15 - ib) → r.toInt = 0) := by
  obtain ⟨hin, hofi⟩ := raw_cases a
  generalize a.toInt = v at *
  obtain ⟨e, b1, b2, b3⟩ := expNeg_I (m := m) hib hin ha
  refine ⟨_, by rw [hofi]; exact e, ?_⟩
  rw [toI (in16 (by omega))]
  refine ⟨b1, ?_, ?_, ?_⟩
  · intro h; subst h; unfold expN; simp
  · intro h2 h
    by_contra hne
    have := b3 (by omega)
    have ht : expTop ib ≤ 32766 := by
      unfold expTop
      split
      · omega
      · split
        · omega
        · omega
    omega
  · intro h5 hlt
    have ep : (2 : Int) ^ (20 - ib) = 32 * 2 ^ (15 - ib) := by
      rw [show 20 - ib = 5 + (15 - ib) by omega, Int.pow_add]; norm_num
    have hp := two_pow_pos' (15 - ib)
    unfold expN
    dsimp only
    rw [if_neg (by omega), if_pos ⟨h5, by rw [ep]; omega⟩]

/-- Sample values: at 0, at -1 with 5 integer bits, below -32 with 8 integer bits, and `1` away from
zero with one integer bit. -/
example : expNeg .trap 5 (0 : BitVec 16) = .ok (BitVec.ofInt 16 (2 ^ 15 - 1)) ∧
    expNeg .trap 5 (BitVec.ofInt 16 (-2 ^ 10)) = .ok (BitVec.ofInt 16 12055) ∧
    expNeg .trap 8 (BitVec.ofInt 16 (-2 ^ 13)) = .ok 0 ∧
    expNeg .trap 1 (BitVec.ofInt 16 (-1)) = .ok (BitVec.ofInt 16 (2 ^ 15 - 1)) := by decide

/-- Fourteen integer bits are not supported: the quarter is not representable. -/
theorem C36_fourteen_bits (m : OvMode) (a : BitVec 16) : expNeg m 14 a = .error .badOp := rfl

/-- **C50** for 16 bits: within two and a half units of the exponential function. -/
theorem C50_exp16_accuracy (m : OvMode) (ib : Nat) (hib : ib ≤ 13) (a : BitVec 16) (ha : a.toInt ≤ 0) :
    ∃ r, expNeg m ib a = .ok r ∧
      |(r.toInt : ℝ) / 2 ^ 15 - Real.exp ((a.toInt : ℝ) / 2 ^ (15 - ib))| ≤ 5 / 2 ^ 16 := by
  obtain ⟨hin, hofi⟩ := raw_cases a
  generalize a.toInt = v at *
  obtain ⟨e, b1, b2, b3⟩ := expNeg_I (m := m) hib hin ha
  refine ⟨_, by rw [hofi]; exact e, ?_⟩
  rw [toI (in16 (by omega))]
  have := expN_acc hib hin ha
  unfold val rval u at this
  norm_num at this ⊢
  linarith

/-! ## logistic -/

/-- **C37** for 16 bits: no fault, a value in `[0, 1]`,
exactly one half at 0.  With at least four integer bits above one half for positive and below for
negative arguments; with three, not below and below. -/
theorem C37_logistic16_partial (m : OvMode) (ib : Nat) (hib : ib ≤ 13) (a : BitVec 16)
    (ha : m = .wrap ∨ a.toInt ≠ -2 ^ 15) :
    ∃ r, logistic m ib a = .ok r ∧ 0 ≤ r.toInt ∧ (a.toInt = 0 → r.toInt = 2 ^ 14) ∧
      (3 ≤ ib → 0 < a.toInt → 2 ^ 14 ≤ r.toInt) ∧ (4 ≤ ib → 0 < a.toInt → 2 ^ 14 < r.toInt) ∧
      (3 ≤ ib → a.toInt < 0 → r.toInt < 2 ^ 14) := by
  obtain ⟨hin, hofi⟩ := raw_cases a
  generalize a.toInt = v at *
  have h' := (in16_iff v).1 hin
  refine ⟨_, by rw [hofi]; exact logistic_I hib hin (ha.imp id (fun h => by omega)), ?_⟩
  obtain ⟨b1, b2, b3, b4⟩ := logisticI_bounds hib hin
  rw [toI (in16 (by omega))]
  refine ⟨b1, ?_, ?_, ?_, ?_⟩
  · intro h; unfold logisticI; rw [if_pos h]; rfl
  · intro h3 h; have := (b4 h3).1 h; omega
  · intro h3 h; have := (b3 h3).1 h; omega
  · intro h3 h; have := (b4 h3).2 h; omega

/-- **C37** fails near zero with fewer than three integer bits: the result for the smallest positive
number is below one half, that for the smallest negative number above (finding F18). -/
theorem C37_logistic16_side_fails :
    (∀ m : OvMode, logistic m 0 (1 : BitVec 16) = .ok (BitVec.ofInt 16 16380) ∧
      logistic m 0 (-1 : BitVec 16) = .ok (BitVec.ofInt 16 16387)) ∧
    (∀ m : OvMode, logistic m 1 (1 : BitVec 16) = .ok (BitVec.ofInt 16 16380)) ∧
    (∀ m : OvMode, logistic m 2 (1 : BitVec 16) = .ok (BitVec.ofInt 16 16382)) := by
  refine ⟨?_, ?_, ?_⟩ <;> intro m <;> cases m <;> decide +kernel

/-- **C37** for 16 bits, symmetry: `logistic(-x) = 1 - logistic(x)`, where `1` is the largest
representable number, for every `x ≠ 0` whose negation is representable. -/
theorem C37_symmetry16 (m : OvMode) (ib : Nat) (hib : ib ≤ 13) (a b : BitVec 16)
    (ha : a.toInt ≠ 0) (hb : b.toInt = -a.toInt) :
    ∃ r s, logistic m ib a = .ok r ∧ logistic m ib b = .ok s ∧ r.toInt + s.toInt = 2 ^ 15 - 1 := by
  obtain ⟨hin, hofi⟩ := raw_cases a
  obtain ⟨hin', hofi'⟩ := raw_cases b
  rw [hb] at hin' hofi'
  generalize a.toInt = v at *
  have h' := (in16_iff v).1 hin
  have h'' := (in16_iff _).1 hin'
  refine ⟨_, _, by rw [hofi]; exact logistic_I hib hin (Or.inr (by omega)),
    by rw [hofi']; exact logistic_I hib hin' (Or.inr (by omega)), ?_⟩
  obtain ⟨b1, b2, -, -⟩ := logisticI_bounds hib hin
  obtain ⟨c1, c2, -, -⟩ := logisticI_bounds hib hin'
  rw [toI (in16 (by omega)), toI (in16 (by omega))]
  unfold logisticI
  rw [if_neg ha, if_neg (show ¬ -v = 0 by omega), Int.neg_neg]
  by_cases hp : 0 < v
  · rw [if_pos hp, if_neg (show ¬ 0 < -v by omega)]; omega
  · rw [if_neg hp, if_pos (show 0 < -v by omega)]; omega

example : logistic .trap 4 (BitVec.ofInt 16 (2 ^ 11)) = .ok (BitVec.ofInt 16 23952) ∧
    logistic .trap 4 (BitVec.ofInt 16 (-2 ^ 11)) = .ok (BitVec.ofInt 16 8815) := by decide +kernel

/-- **C51** for 16 bits: within nine and a half units of `1 / (1 + exp(-x))`. -/
theorem C51_logistic16_accuracy (m : OvMode) (ib : Nat) (hib : ib ≤ 13) (a : BitVec 16)
    (ha : m = .wrap ∨ a.toInt ≠ -2 ^ 15) :
    ∃ r, logistic m ib a = .ok r ∧
      |(r.toInt : ℝ) / 2 ^ 15 - 1 / (1 + Real.exp (-((a.toInt : ℝ) / 2 ^ (15 - ib))))| ≤ 19 / 2 ^ 16 := by
  obtain ⟨hin, hofi⟩ := raw_cases a
  generalize a.toInt = v at *
  have h' := (in16_iff v).1 hin
  refine ⟨_, by rw [hofi]; exact logistic_I hib hin (ha.imp id (fun h => by omega)), ?_⟩
  obtain ⟨b1, b2, -, -⟩ := logisticI_bounds hib hin
  rw [toI (in16 (by omega))]
  have := logisticI_acc hib hin
  unfold val rval u at this
  norm_num at this ⊢
  linarith

/-! ## tanh -/

/-- **C38** for 16 bits: no fault, a value in
`[-1, 1]`, exactly 0 at 0.  With at least three integer bits of the sign of the argument elsewhere;
with two, not of the other sign. -/
theorem C38_tanh16_partial (m : OvMode) (ib : Nat) (hib : ib ≤ 12) (a : BitVec 16)
    (ha : m = .wrap ∨ a.toInt ≠ -2 ^ 15) :
    ∃ r, tanh m ib a = .ok r ∧ -(2 ^ 15 - 1) ≤ r.toInt ∧ (a.toInt = 0 → r.toInt = 0) ∧
      (3 ≤ ib → (0 < a.toInt → 0 < r.toInt) ∧ (a.toInt < 0 → r.toInt < 0)) ∧
      (2 ≤ ib → (0 < a.toInt → 0 ≤ r.toInt) ∧ (a.toInt < 0 → r.toInt ≤ 0)) := by
  obtain ⟨hin, hofi⟩ := raw_cases a
  generalize a.toInt = v at *
  have h' := (in16_iff v).1 hin
  refine ⟨_, by rw [hofi]; exact tanh_I hib hin (ha.imp id (fun h => by omega)), ?_⟩
  obtain ⟨b1, b2, b3, b4⟩ := tanhI_bounds hib hin
  rw [toI (in16 (by omega))]
  refine ⟨by omega, ?_, b3, b4⟩
  intro h; unfold tanhI; rw [if_pos h]

/-- **C38** fails near zero with fewer than two integer bits: `tanh` of the smallest positive number
is negative; with two integer bits it is 0 (finding F18). -/
theorem C38_tanh16_sign_fails :
    (∀ m : OvMode, tanh m 0 (1 : BitVec 16) = .ok (BitVec.ofInt 16 (-8))) ∧
    (∀ m : OvMode, tanh m 1 (1 : BitVec 16) = .ok (BitVec.ofInt 16 (-4))) ∧
    (∀ m : OvMode, tanh m 2 (1 : BitVec 16) = .ok (BitVec.ofInt 16 0)) := by
  refine ⟨?_, ?_, ?_⟩ <;> intro m <;> cases m <;> decide +kernel

/-- **C38** for 16 bits, oddness: `tanh(-x) = -tanh(x)`. -/
theorem C38_odd16 (m : OvMode) (ib : Nat) (hib : ib ≤ 12) (a b : BitVec 16)
    (hb : b.toInt = -a.toInt) :
    ∃ r s, tanh m ib a = .ok r ∧ tanh m ib b = .ok s ∧ s.toInt = -r.toInt := by
  obtain ⟨hin, hofi⟩ := raw_cases a
  obtain ⟨hin', hofi'⟩ := raw_cases b
  rw [hb] at hin' hofi'
  generalize a.toInt = v at *
  have h' := (in16_iff v).1 hin
  have h'' := (in16_iff _).1 hin'
  refine ⟨_, _, by rw [hofi]; exact tanh_I hib hin (Or.inr (by omega)),
    by rw [hofi']; exact tanh_I hib hin' (Or.inr (by omega)), ?_⟩
  obtain ⟨b1, b2, -, -⟩ := tanhI_bounds hib hin
  obtain ⟨c1, c2, -, -⟩ := tanhI_bounds hib hin'
  rw [toI (in16 (by omega)), toI (in16 (by omega))]
  unfold tanhI
  by_cases hz : v = 0
  · subst hz; rfl
  rw [if_neg hz, if_neg (show ¬ -v = 0 by omega), Int.neg_neg]
  by_cases hp : v < 0
  · rw [if_pos hp, if_neg (by omega), Int.neg_neg]
  · rw [if_neg hp, if_pos (by omega)]

example : tanh .trap 4 (BitVec.ofInt 16 (2 ^ 10)) = .ok (BitVec.ofInt 16 15136) ∧
    tanh .trap 4 (BitVec.ofInt 16 (-2 ^ 10)) = .ok (BitVec.ofInt 16 (-15136)) := by decide +kernel

/-- **C52** for 16 bits: within seventeen units of the hyperbolic tangent. -/
theorem C52_tanh16_accuracy (m : OvMode) (ib : Nat) (hib : ib ≤ 12) (a : BitVec 16)
    (ha : m = .wrap ∨ a.toInt ≠ -2 ^ 15) :
    ∃ r, tanh m ib a = .ok r ∧
      |(r.toInt : ℝ) / 2 ^ 15 - Real.tanh ((a.toInt : ℝ) / 2 ^ (15 - ib))| ≤ 17 / 2 ^ 15 := by
  obtain ⟨hin, hofi⟩ := raw_cases a
  generalize a.toInt = v at *
  have h' := (in16_iff v).1 hin
  refine ⟨_, by rw [hofi]; exact tanh_I hib hin (ha.imp id (fun h => by omega)), ?_⟩
  obtain ⟨b1, b2, -, -⟩ := tanhI_bounds hib hin
  rw [toI (in16 (by omega))]
  have := tanhI_acc hib hin
  unfold val rval u at this
  norm_num at this ⊢
  linarith

end Gemmlowp.Fx16

namespace Gemmlowp.Simd

open Gemmlowp.Spec

/-! ## The vector versions -/

/-- The number of lanes and the operations on `int16` lanes, for SSE, AVX2, NEON, WASM SIMD, MSA. -/
def vec16 : List (Σ n : Nat, RawOps 16 (Reg n 16)) :=
  [⟨8, Sse.ops16⟩, ⟨16, Avx.ops16⟩, ⟨8, Neon.ops16⟩, ⟨8, Wasm.ops16⟩, ⟨8, Msa.ops16⟩]

theorem vec16_lanes {A : Σ n : Nat, RawOps 16 (Reg n 16)} (h : A ∈ vec16) : Lanes A.2 ∧ Full A.2 := by
  obtain ⟨-, f1, -, f2, -, f3, f4, f5⟩ := C34_srdhm_all
  simp only [vec16, List.mem_cons, List.not_mem_nil, or_false] at h
  rcases h with rfl | rfl | rfl | rfl | rfl
  · exact ⟨sse_ops16, f4⟩
  · exact ⟨avx_ops16, f5⟩
  · exact ⟨neon_ops16, f1⟩
  · exact ⟨wasm_ops16, f2⟩
  · exact ⟨msa_ops16, f3⟩

theorem expNonneg16 : ExpNonneg 16 := by
  intro ib hib x hx r hr
  obtain ⟨r', e, h, -⟩ := Fx16.C36_exp16 .wrap ib (by omega) x hx
  rw [hr] at e
  rw [Except.ok.inj e]; exact h

/-- **C34** for the composite functions on 16-bit lanes: each lane of the vector result is what the
scalar C++ function (operands promoted, result narrowed) gives for the lane of the argument. -/
theorem C34_composite16_lanes {A : Σ n : Nat, RawOps 16 (Reg n 16)} (hA : A ∈ vec16) (a : Reg A.1 16) :
    (∀ ib : Nat, ib ≤ 13 → ∃ r, Gen.expNeg A.2 ib a = .ok r ∧
      ∀ i, Fx.expNeg .wrap (ib : Int) (a i) = .ok (r i)) ∧
    (∀ ib : Nat, ib ≤ 13 → ∃ r, Gen.logistic A.2 ib a = .ok r ∧
      ∀ i, Fx.logistic .wrap (ib : Int) (a i) = .ok (r i)) ∧
    (∀ ib : Nat, ib ≤ 12 → ∃ r, Gen.tanh A.2 ib a = .ok r ∧
      ∀ i, Fx.tanh .wrap (ib : Int) (a i) = .ok (r i)) := by
  obtain ⟨hl, hf⟩ := vec16_lanes hA
  exact ⟨fun ib h => expNeg_sim (Or.inl rfl) hl (by omega) a,
    fun ib h => logistic_sim (Or.inl rfl) hl expNonneg16 (Or.inl hf) (by omega) a,
    fun ib h => tanh_sim (Or.inl rfl) hl expNonneg16 (Or.inl hf) (by omega) a⟩

/-- **C50, C51, C52** in every 16-bit lane of the vector versions, for every input. -/
theorem C50_vector16_accuracy {A : Σ n : Nat, RawOps 16 (Reg n 16)} (hA : A ∈ vec16) (a : Reg A.1 16) :
    (∀ ib : Nat, ib ≤ 13 → (∀ i, (a i).toInt ≤ 0) → ∃ r, Gen.expNeg A.2 ib a = .ok r ∧ ∀ i,
      |((r i).toInt : ℝ) / 2 ^ 15 - Real.exp (((a i).toInt : ℝ) / 2 ^ (15 - ib))| ≤ 5 / 2 ^ 16) ∧
    (∀ ib : Nat, ib ≤ 13 → ∃ r, Gen.logistic A.2 ib a = .ok r ∧ ∀ i,
      |((r i).toInt : ℝ) / 2 ^ 15 - 1 / (1 + Real.exp (-(((a i).toInt : ℝ) / 2 ^ (15 - ib))))| ≤
        19 / 2 ^ 16) ∧
    (∀ ib : Nat, ib ≤ 12 → ∃ r, Gen.tanh A.2 ib a = .ok r ∧ ∀ i,
      |((r i).toInt : ℝ) / 2 ^ 15 - Real.tanh (((a i).toInt : ℝ) / 2 ^ (15 - ib))| ≤ 17 / 2 ^ 15) := by
  obtain ⟨h1, h2, h3⟩ := C34_composite16_lanes hA a
  refine ⟨fun ib hib hn => ?_, fun ib hib => ?_, fun ib hib => ?_⟩
  · obtain ⟨r, e, h⟩ := h1 ib hib
    refine ⟨r, e, fun i => ?_⟩
    obtain ⟨s, e1, h4⟩ := Fx16.C50_exp16_accuracy .wrap ib hib (a i) (hn i)
    rw [h i] at e1
    rwa [← Except.ok.inj e1] at h4
  · obtain ⟨r, e, h⟩ := h2 ib hib
    refine ⟨r, e, fun i => ?_⟩
    obtain ⟨s, e1, h4⟩ := Fx16.C51_logistic16_accuracy .wrap ib hib (a i) (Or.inl rfl)
    rw [h i] at e1
    rwa [← Except.ok.inj e1] at h4
  · obtain ⟨r, e, h⟩ := h3 ib hib
    refine ⟨r, e, fun i => ?_⟩
    obtain ⟨s, e1, h4⟩ := Fx16.C52_tanh16_accuracy .wrap ib hib (a i) (Or.inl rfl)
    rw [h i] at e1
    rwa [← Except.ok.inj e1] at h4

end Gemmlowp.Simd
