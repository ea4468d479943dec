import Verif.SimdTransProof
/-!
# Properties C36-C38, C50-C52 for the vector versions of exp, logistic and tanh

`vec32` lists the operations on `int32` lanes of the five instruction sets.  Vector arithmetic wraps
around, so there is no exception for the least input.
-/
namespace Gemmlowp.Simd

open Gemmlowp.Spec

/-- The number of lanes and the operations, for SSE, AVX2, NEON, WASM SIMD and MSA. -/
def vec32 : List (Σ n : Nat, RawOps 32 (Reg n 32)) :=
  [⟨4, Sse.ops32⟩, ⟨8, Avx.ops32⟩, ⟨4, Neon.ops32⟩, ⟨4, Wasm.ops32⟩, ⟨4, Msa.ops32⟩]

theorem vec32_lanes {A : Σ n : Nat, RawOps 32 (Reg n 32)} (h : A ∈ vec32) : Lanes A.2 := by
  simp only [vec32, List.mem_cons, List.not_mem_nil, or_false] at h
  rcases h with rfl | rfl | rfl | rfl | rfl
  · exact sse_ops32
  · exact avx_ops32
  · exact neon_ops32
  · exact wasm_ops32
  · exact msa_ops32

/-- **C34** for the composite functions: each lane of the vector exp is the scalar exp of the lane
of the argument. -/
theorem C34_exp_lanes {A : Σ n : Nat, RawOps 32 (Reg n 32)} (hA : A ∈ vec32) {ib : Nat} (hib : ib ≤ 29)
    (a : Reg A.1 32) : ∃ r, Gen.expNeg A.2 ib a = .ok r ∧
      ∀ i, Fx.expNeg .wrap (ib : Int) (a i) = .ok (r i) :=
  expNeg_sim (Or.inr rfl) (vec32_lanes hA) (by omega) a

/-- **C34** for the logistic function. -/
theorem C34_logistic_lanes {A : Σ n : Nat, RawOps 32 (Reg n 32)} (hA : A ∈ vec32) {ib : Nat}
    (hib : ib ≤ 29) (a : Reg A.1 32) : ∃ r, Gen.logistic A.2 ib a = .ok r ∧
      ∀ i, Fx.logistic .wrap (ib : Int) (a i) = .ok (r i) :=
  logistic_sim (Or.inr rfl) (vec32_lanes hA) expNonneg32 (Or.inr rfl) (by omega) a

/-- **C34** for the hyperbolic tangent. -/
theorem C34_tanh_lanes {A : Σ n : Nat, RawOps 32 (Reg n 32)} (hA : A ∈ vec32) {ib : Nat}
    (hib : ib ≤ 28) (a : Reg A.1 32) : ∃ r, Gen.tanh A.2 ib a = .ok r ∧
      ∀ i, Fx.tanh .wrap (ib : Int) (a i) = .ok (r i) :=
  tanh_sim (Or.inr rfl) (vec32_lanes hA) expNonneg32 (Or.inr rfl) (by omega) a

/-- Where no signed overflow happens, the two arithmetics agree: the lanes are also what the C++
scalar functions return, except at the least input of logistic and tanh. -/
theorem C34_trap_lanes {A : Σ n : Nat, RawOps 32 (Reg n 32)} (hA : A ∈ vec32) {ib : Nat}
    (hib : ib ≤ 28) (a : Reg A.1 32) (ha : ∀ i, (a i).toInt ≠ -2 ^ 31) :
    (∃ r, Gen.logistic A.2 ib a = .ok r ∧ ∀ i, Fx.logistic .trap (ib : Int) (a i) = .ok (r i)) ∧
    (∃ r, Gen.tanh A.2 ib a = .ok r ∧ ∀ i, Fx.tanh .trap (ib : Int) (a i) = .ok (r i)) ∧
    ((∀ i, (a i).toInt ≤ 0) →
      ∃ r, Gen.expNeg A.2 ib a = .ok r ∧ ∀ i, Fx.expNeg .trap (ib : Int) (a i) = .ok (r i)) := by
  refine ⟨?_, ?_, fun hn => ?_⟩
  · obtain ⟨r, e, h⟩ := C34_logistic_lanes hA (ib := ib) (by omega) a
    refine ⟨r, e, fun i => ?_⟩
    have h1 := h i
    obtain ⟨hin, hofi⟩ := Fx.raw_cases (a i)
    have hm := ha i
    rw [hofi, Fx.logistic_I (by omega) hin (Or.inl rfl)] at h1
    rw [hofi, Fx.logistic_I (by omega) hin (Or.inr (by rw [Fx.in32_iff] at hin; omega))]
    exact h1
  · obtain ⟨r, e, h⟩ := C34_tanh_lanes hA (ib := ib) (by omega) a
    refine ⟨r, e, fun i => ?_⟩
    have h1 := h i
    obtain ⟨hin, hofi⟩ := Fx.raw_cases (a i)
    have hm := ha i
    rw [hofi, Fx.tanh_I (by omega) hin (Or.inl rfl)] at h1
    rw [hofi, Fx.tanh_I (by omega) hin (Or.inr (by rw [Fx.in32_iff] at hin; omega))]
    exact h1
  · obtain ⟨r, e, h⟩ := C34_exp_lanes hA (ib := ib) (by omega) a
    refine ⟨r, e, fun i => ?_⟩
    have h1 := h i
    obtain ⟨hin, hofi⟩ := Fx.raw_cases (a i)
    rw [hofi, (Fx.expNeg_I (m := .wrap) (by omega) hin (hn i)).1] at h1
    rw [hofi, (Fx.expNeg_I (m := .trap) (by omega) hin (hn i)).1]
    exact h1

/-- **C36, C50** in every lane: a value in `[0, 1]`, `1` exactly at 0, zero for more than 5 integer
bits and arguments below -32, within `2^-22` of the exponential function. -/
theorem C36_exp_vector {A : Σ n : Nat, RawOps 32 (Reg n 32)} (hA : A ∈ vec32) {ib : Nat} (hib : ib ≤ 29)
    (a : Reg A.1 32) (ha : ∀ i, (a i).toInt ≤ 0) :
    ∃ r, Gen.expNeg A.2 ib a = .ok r ∧ ∀ i,
      0 ≤ (r i).toInt ∧ ((r i).toInt = 2 ^ 31 - 1 ↔ (a i).toInt = 0) ∧
      (5 < ib → (a i).toInt < -32 * 2 ^ (31 - ib) → (r i).toInt = 0) ∧
      |((r i).toInt : ℝ) / 2 ^ 31 - Real.exp (((a i).toInt : ℝ) / 2 ^ (31 - ib))| ≤ 1 / 2 ^ 22 := by
  obtain ⟨r, e, h⟩ := C34_exp_lanes hA hib a
  refine ⟨r, e, fun i => ?_⟩
  obtain ⟨s, e1, h1, h2, h3⟩ := Fx.C36_exp .wrap ib hib (a i) (ha i)
  obtain ⟨t, e2, h4⟩ := Fx.C50_exp_accuracy .wrap ib hib (a i) (ha i)
  rw [h i] at e1 e2
  rw [← Except.ok.inj e1] at h1 h2 h3
  rw [← Except.ok.inj e2] at h4
  exact ⟨h1, h2, h3, h4⟩

/-- **C37, C51** in every lane, for every input: one half at 0, above one half for positive and
below for negative arguments, within `2^-23` of the logistic function. -/
theorem C37_logistic_vector {A : Σ n : Nat, RawOps 32 (Reg n 32)} (hA : A ∈ vec32) {ib : Nat}
    (hib : ib ≤ 29) (a : Reg A.1 32) :
    ∃ r, Gen.logistic A.2 ib a = .ok r ∧ ∀ i,
      0 ≤ (r i).toInt ∧ ((a i).toInt = 0 → (r i).toInt = 2 ^ 30) ∧
      (0 < (a i).toInt → 2 ^ 30 < (r i).toInt) ∧ ((a i).toInt < 0 → (r i).toInt < 2 ^ 30) ∧
      |((r i).toInt : ℝ) / 2 ^ 31 - 1 / (1 + Real.exp (-(((a i).toInt : ℝ) / 2 ^ (31 - ib))))| ≤
        1 / 2 ^ 23 := by
  obtain ⟨r, e, h⟩ := C34_logistic_lanes hA hib a
  refine ⟨r, e, fun i => ?_⟩
  obtain ⟨s, e1, h1, h2, h3, h4⟩ := Fx.C37_logistic_partial .wrap ib hib (a i) (Or.inl rfl)
  obtain ⟨t, e2, h5⟩ := Fx.C51_logistic_accuracy .wrap ib hib (a i) (Or.inl rfl)
  rw [h i] at e1 e2
  rw [← Except.ok.inj e1] at h1 h2 h3 h4
  rw [← Except.ok.inj e2] at h5
  exact ⟨h1, h2, h3, h4, h5⟩

/-- **C38, C52** in every lane, for every input: 0 at 0, of the sign of the argument elsewhere,
within `2^-22` of the hyperbolic tangent. -/
theorem C38_tanh_vector {A : Σ n : Nat, RawOps 32 (Reg n 32)} (hA : A ∈ vec32) {ib : Nat}
    (hib : ib ≤ 28) (a : Reg A.1 32) :
    ∃ r, Gen.tanh A.2 ib a = .ok r ∧ ∀ i,
      -(2 ^ 31 - 1) ≤ (r i).toInt ∧ ((a i).toInt = 0 → (r i).toInt = 0) ∧
      (0 < (a i).toInt → 0 < (r i).toInt) ∧ ((a i).toInt < 0 → (r i).toInt < 0) ∧
      |((r i).toInt : ℝ) / 2 ^ 31 - Real.tanh (((a i).toInt : ℝ) / 2 ^ (31 - ib))| ≤ 1 / 2 ^ 22 := by
  obtain ⟨r, e, h⟩ := C34_tanh_lanes hA hib a
  refine ⟨r, e, fun i => ?_⟩
  obtain ⟨s, e1, h1, h2, h3, h4⟩ := Fx.C38_tanh_partial .wrap ib hib (a i) (Or.inl rfl)
  obtain ⟨t, e2, h5⟩ := Fx.C52_tanh_accuracy .wrap ib hib (a i) (Or.inl rfl)
  rw [h i] at e1 e2
  rw [← Except.ok.inj e1] at h1 h2 h3 h4
  rw [← Except.ok.inj e2] at h5
  exact ⟨h1, h2, h3, h4, h5⟩

/-- The NEON logistic function on four different numbers, among them the least one. -/
example : ((Gen.logistic Neon.ops32 4 (fun i => BitVec.ofInt 32
      ([2 ^ 27, -2 ^ 27, 0, -2 ^ 31].getD i.val 0))).toOption.map fun r =>
        (List.ofFn r).map BitVec.toInt) = some [1569936226, 577547421, 1073741824, 241] := by
  decide +kernel

end Gemmlowp.Simd
