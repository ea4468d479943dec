import Verif.SimdProof4
/-!
# Properties C32, C33, C34: the vector versions of the fixed-point primitives
-/
namespace Gemmlowp.Simd

open Isa Fx Spec

variable {n w : Nat}

/-! ## C34 -/

/-- **C34**, SSE4, `__m128i`: every primitive gives in every lane what the scalar one gives, with the
exceptions written in `Spec.LanesSimple`: left shifts that overflow, half sums that are negative and
odd, and the square of the least number. -/
theorem C34_sse32_partial : Lanes Sse.ops32 := sse_ops32
/-- **C34**, SSE4, `int16x8_m128i`. -/
theorem C34_sse16_partial : Lanes Sse.ops16 := sse_ops16
/-- **C34**, AVX2, `__m256i`. -/
theorem C34_avx32_partial : Lanes Avx.ops32 := avx_ops32
/-- **C34**, AVX2, `int16x16_m256i`. -/
theorem C34_avx16_partial : Lanes Avx.ops16 := avx_ops16
/-- **C34**, NEON, `int32x4_t`. -/
theorem C34_neon32_partial : Lanes Neon.ops32 := neon_ops32
/-- **C34**, NEON, `int16x8_t`. -/
theorem C34_neon16_partial : Lanes Neon.ops16 := neon_ops16
/-- **C34**, WebAssembly, `v128_t`. -/
theorem C34_wasm32_partial : Lanes Wasm.ops32 := wasm_ops32
/-- **C34**, WebAssembly, `int16x8_v128_t`. -/
theorem C34_wasm16_partial : Lanes Wasm.ops16 := wasm_ops16
/-- **C34**, MSA, `v4i32`. -/
theorem C34_msa32_partial : Lanes Msa.ops32 := msa_ops32
/-- **C34**, MSA, `v8i16`. -/
theorem C34_msa16_partial : Lanes Msa.ops16 := msa_ops16

/-- **C34**, the product: NEON, WebAssembly, MSA and all 16-bit versions agree with the scalar one on
every pair of values, the square of the least number included. -/
theorem C34_srdhm_all :
    (∀ a b i, Neon.ops32.srdhm a b i = Fx.srdhm (a i) (b i)) ∧
    (∀ a b i, Neon.ops16.srdhm a b i = Fx.srdhm (a i) (b i)) ∧
    (∀ a b i, Wasm.ops32.srdhm a b i = Fx.srdhm (a i) (b i)) ∧
    (∀ a b i, Wasm.ops16.srdhm a b i = Fx.srdhm (a i) (b i)) ∧
    (∀ a b i, Msa.ops32.srdhm a b i = Fx.srdhm (a i) (b i)) ∧
    (∀ a b i, Msa.ops16.srdhm a b i = Fx.srdhm (a i) (b i)) ∧
    (∀ a b i, Sse.ops16.srdhm a b i = Fx.srdhm (a i) (b i)) ∧
    (∀ a b i, Avx.ops16.srdhm a b i = Fx.srdhm (a i) (b i)) :=
  ⟨qrdmulh_lane (by decide), qrdmulh_lane (by decide), wasm_srdhm32, wasm_srdhm16,
    qrdmulh_lane (by decide), qrdmulh_lane (by decide), sse_srdhm16, sse_srdhm16⟩

/-- **C34 fails** (F1) for the 32-bit product of SSE and AVX: whenever a lane of both operands is the
least number, the lane of the result is the least number, where the scalar version returns the
greatest. -/
theorem C34_srdhm_sse_min_fails :
    (∀ a b i, (a i).toInt = -2 ^ 31 → (b i).toInt = -2 ^ 31 →
      (Sse.ops32.srdhm a b i).toInt = -2 ^ 31 ∧ (Fx.srdhm (a i) (b i)).toInt = 2 ^ 31 - 1) ∧
    (∀ a b i, (a i).toInt = -2 ^ 31 → (b i).toInt = -2 ^ 31 →
      (Avx.ops32.srdhm a b i).toInt = -2 ^ 31 ∧ (Fx.srdhm (a i) (b i)).toInt = 2 ^ 31 - 1) := by
  have scal : ∀ a b : BitVec 32, a.toInt = -2 ^ 31 → b.toInt = -2 ^ 31 →
      (Fx.srdhm a b).toInt = 2 ^ 31 - 1 := by
    intro a b h1 h2
    rw [(srdhm_spec (w := 32) (by decide) a b).1 ⟨by rw [h1]; decide, by rw [h2]; decide⟩]
    decide
  constructor
  · intro a b i h1 h2
    refine ⟨?_, scal _ _ h1 h2⟩
    have := sse_srdhm32 (n := 4) (by decide) (fun m a b i _ => select_or (m i) (a i) (b i)) a b i
    rw [if_pos ⟨by rw [h1]; decide, by rw [h2]; decide⟩] at this
    show (Sse.srdhm32 Sse.selectUsingMask a b i).toInt = _
    rw [show Sse.srdhm32 Sse.selectUsingMask a b i = _ from this]; decide
  · intro a b i h1 h2
    refine ⟨?_, scal _ _ h1 h2⟩
    have := sse_srdhm32 (n := 8) (by decide) avx_select a b i
    rw [if_pos ⟨by rw [h1]; decide, by rw [h2]; decide⟩] at this
    show (Sse.srdhm32 Avx.selectUsingMask32 a b i).toInt = _
    rw [this]; decide

/-- **C34 fails** (F4) for left shifts: the scalar version saturates and no vector version does. -/
theorem C34_shiftLeft_fails :
    Fx.shiftLeft (0x40000000#32) 1 = .ok 0x7fffffff#32 ∧ Fx.shiftLeft (0x4000#16) 1 = .ok 0x7fff#16 ∧
    Sse.ops32.shiftLeft (fun _ => 0x40000000#32) 1 0 = 0x80000000#32 ∧
    Sse.ops16.shiftLeft (fun _ => 0x4000#16) 1 0 = 0x8000#16 ∧
    Avx.ops32.shiftLeft (fun _ => 0x40000000#32) 1 0 = 0x80000000#32 ∧
    Avx.ops16.shiftLeft (fun _ => 0x4000#16) 1 0 = 0x8000#16 ∧
    Neon.ops32.shiftLeft (fun _ => 0x40000000#32) 1 0 = 0x80000000#32 ∧
    Neon.ops16.shiftLeft (fun _ => 0x4000#16) 1 0 = 0x8000#16 ∧
    Wasm.ops32.shiftLeft (fun _ => 0x40000000#32) 1 0 = 0x80000000#32 ∧
    Wasm.ops16.shiftLeft (fun _ => 0x4000#16) 1 0 = 0x8000#16 ∧
    Msa.ops32.shiftLeft (fun _ => 0x40000000#32) 1 0 = 0x80000000#32 ∧
    Msa.ops16.shiftLeft (fun _ => 0x4000#16) 1 0 = 0x8000#16 := by
  refine ⟨by decide, by decide, ?_⟩
  refine ⟨?_, ?_, ?_, ?_, ?_, ?_, ?_, ?_, ?_, ?_⟩ <;> decide +kernel

/-- **C34**, NEON division by a vector of exponents (fixedpoint_neon.h:295-309). -/
theorem C34_neon_rdpotVec (x e : Reg 4 32) (i : Fin 4) (h0 : 0 ≤ (e i).toInt) (h1 : (e i).toInt ≤ 31) :
    Fx.rdpot .wrap (x i) (e i).toInt = .ok (Neon.rdpotVec x e i) :=
  neon_rdpotVec (by decide) x e i (by omega) h0 h1

/-- The primitives on one register with different lanes. -/
example : (∀ i, Sse.ops32.srdhm (fun i => BitVec.ofInt 32 (2 ^ 30 * ((i.val : Int) - 2))) (splat 0x60000000#32) i =
      BitVec.ofInt 32 (3 * 2 ^ 28 * ((i.val : Int) - 2))) ∧
    (∀ i, Wasm.ops32.srdhm (fun i => BitVec.ofInt 32 (2 ^ 30 * ((i.val : Int) - 2))) (splat 0x60000000#32) i =
      BitVec.ofInt 32 (3 * 2 ^ 28 * ((i.val : Int) - 2))) ∧
    (Msa.ops16.srmbp 6 (fun i => BitVec.ofInt 16 (300 * (i.val : Int) - 900))).toOption.map
      (fun r => (List.ofFn r).map BitVec.toInt) =
      some [-32768, -32768, -19200, 0, 19200, 32767, 32767, 32767] ∧
    (Neon.ops16.rdpot (fun i => BitVec.ofInt 16 (2 * (i.val : Int) - 6)) 2).toOption.map
      (fun r => (List.ofFn r).map BitVec.toInt) = some [-2, -1, -1, 0, 1, 1, 2, 2] := by
  decide +kernel

/-! ## C32 -/

/-- **C32**, the vector versions: all of them return the half sum rounded to nearest, ties up, and so
agree with each other on all pairs of values. -/
theorem C32_simd :
    (∀ a b i, NearestUp ((a i).toInt + (b i).toInt) 2 (Sse.ops32.roundingHalfSum a b i).toInt) ∧
    (∀ a b i, NearestUp ((a i).toInt + (b i).toInt) 2 (Sse.ops16.roundingHalfSum a b i).toInt) ∧
    (∀ a b i, NearestUp ((a i).toInt + (b i).toInt) 2 (Avx.ops32.roundingHalfSum a b i).toInt) ∧
    (∀ a b i, NearestUp ((a i).toInt + (b i).toInt) 2 (Avx.ops16.roundingHalfSum a b i).toInt) ∧
    (∀ a b i, NearestUp ((a i).toInt + (b i).toInt) 2 (Neon.ops32.roundingHalfSum a b i).toInt) ∧
    (∀ a b i, NearestUp ((a i).toInt + (b i).toInt) 2 (Neon.ops16.roundingHalfSum a b i).toInt) ∧
    (∀ a b i, NearestUp ((a i).toInt + (b i).toInt) 2 (Wasm.ops32.roundingHalfSum a b i).toInt) ∧
    (∀ a b i, NearestUp ((a i).toInt + (b i).toInt) 2 (Wasm.ops16.roundingHalfSum a b i).toInt) ∧
    (∀ a b i, NearestUp ((a i).toInt + (b i).toInt) 2 (Msa.ops32.roundingHalfSum a b i).toInt) ∧
    (∀ a b i, NearestUp ((a i).toInt + (b i).toInt) 2 (Msa.ops16.roundingHalfSum a b i).toInt) := by
  have key : ∀ {w : Nat} (hw : 1 < w) (a b r : BitVec w), r = BitVec.ofInt w ((a.toInt + b.toInt + 1) / 2) →
      NearestUp (a.toInt + b.toInt) 2 r.toInt := by
    intro w hw a b r h
    have ha := inW_toInt (show 0 < w by omega) a
    have hb := inW_toInt (show 0 < w by omega) b
    rw [h, toInt_ofIntW (by omega) (by unfold InW at *; omega)]
    unfold NearestUp; omega
  refine ⟨fun a b i => key (by decide) _ _ _ (sse_rhs32 a b i), fun a b i => key (by decide) _ _ _ (sse_rhs16 a b i),
    fun a b i => key (by decide) _ _ _ (sse_rhs32 a b i), fun a b i => key (by decide) _ _ _ (sse_rhs16 a b i),
    fun a b i => key (by decide) _ _ _ rfl, fun a b i => key (by decide) _ _ _ rfl,
    fun a b i => key (by decide) _ _ _ (wasm_rhs32 a b i), fun a b i => key (by decide) _ _ _ (wasm_rhs16 a b i),
    fun a b i => key (by decide) _ _ _ rfl, fun a b i => key (by decide) _ _ _ rfl⟩

/-- **C32 fails** (F2) between scalar and vector versions, for every pair with a negative odd sum: the
vector version (ties up) is one more than the scalar version (ties away from zero). -/
theorem C32_scalar_simd_fails (hw : 1 < w) (a b r : BitVec w) (h : NearestUp (a.toInt + b.toInt) 2 r.toInt)
    (hneg : a.toInt + b.toInt < 0) (hodd : (a.toInt + b.toInt) % 2 = 1) :
    r.toInt = (Fx.roundingHalfSum a b).toInt + 1 := by
  have h2 := C32_roundingHalfSum hw a b
  unfold NearestAway at h2
  rw [if_neg (by omega)] at h2
  unfold NearestUp at h
  omega

example : Sse.ops32.roundingHalfSum (splat (-3)) (splat (-4)) 0 = BitVec.ofInt 32 (-3) ∧
    Fx.roundingHalfSum (-3 : BitVec 32) (-4) = BitVec.ofInt 32 (-4) ∧
    Neon.ops16.roundingHalfSum (splat 0x7fff#16) (splat 0x7ffe#16) 5 = 0x7fff#16 := by
  decide +kernel

/-! ## C33 -/

theorem mask_and {x y : BitVec w} (hx : IsMask x) (hy : IsMask y) :
    IsMask (x &&& y) ∧ (x &&& y ≠ 0 ↔ x ≠ 0 ∧ y ≠ 0) := by
  refine ⟨isMask_and hx hy, ?_⟩
  rcases hx with rfl | rfl <;> rcases hy with rfl | rfl <;> simp

theorem or_ne_zero (x y : BitVec w) : x ||| y ≠ 0 ↔ x ≠ 0 ∨ y ≠ 0 := by
  have h : x ||| y = 0 ↔ x = 0 ∧ y = 0 := BitVec.or_eq_zero_iff
  rw [ne_eq, h]; tauto

theorem forall4 {p : Fin 4 → Prop} : (∀ i, p i) ↔ p 0 ∧ p 1 ∧ p 2 ∧ p 3 :=
  ⟨fun h => ⟨h 0, h 1, h 2, h 3⟩, fun ⟨h0, h1, h2, h3⟩ i => match i with
    | 0 => h0 | 1 => h1 | 2 => h2 | 3 => h3⟩

theorem forall8 {p : Fin 8 → Prop} : (∀ i, p i) ↔ p 0 ∧ p 1 ∧ p 2 ∧ p 3 ∧ p 4 ∧ p 5 ∧ p 6 ∧ p 7 :=
  ⟨fun h => ⟨h 0, h 1, h 2, h 3, h 4, h 5, h 6, h 7⟩, fun ⟨h0, h1, h2, h3, h4, h5, h6, h7⟩ i => match i with
    | 0 => h0 | 1 => h1 | 2 => h2 | 3 => h3 | 4 => h4 | 5 => h5 | 6 => h6 | 7 => h7⟩

theorem neon_all32 : AllOk Neon.ops32 := by
  intro m hm
  show ((m 0 &&& m 1) &&& (m 2 &&& m 3) != 0) = true ↔ _
  have h01 := mask_and (hm 0) (hm 1)
  have h23 := mask_and (hm 2) (hm 3)
  rw [bne_iff_ne, (mask_and h01.1 h23.1).2, h01.2, h23.2, forall4 (p := fun i => m i ≠ 0)]
  tauto

theorem neon_any32 : AnyOk Neon.ops32 := by
  intro m hm
  show ((m 0 ||| m 1) ||| (m 2 ||| m 3) != 0) = true ↔ _
  rw [bne_iff_ne, or_ne_zero, or_ne_zero, or_ne_zero]
  have := forall4 (p := fun i => m i = 0)
  rw [← not_iff_not, not_exists]
  simp only [not_not, not_or, ne_eq]
  rw [this]; tauto

theorem neon_all16 : AllOk Neon.ops16 := by
  intro m hm
  show (((m 0 &&& m 1) &&& (m 2 &&& m 3)) &&& ((m 4 &&& m 5) &&& (m 6 &&& m 7)) != 0) = true ↔ _
  have h01 := mask_and (hm 0) (hm 1)
  have h23 := mask_and (hm 2) (hm 3)
  have h45 := mask_and (hm 4) (hm 5)
  have h67 := mask_and (hm 6) (hm 7)
  have h03 := mask_and h01.1 h23.1
  have h47 := mask_and h45.1 h67.1
  rw [bne_iff_ne, (mask_and h03.1 h47.1).2, h03.2, h47.2, h01.2, h23.2, h45.2, h67.2,
    forall8 (p := fun i => m i ≠ 0)]
  tauto

theorem neon_any16 : AnyOk Neon.ops16 := by
  intro m hm
  show (((m 0 ||| m 1) ||| (m 2 ||| m 3)) ||| ((m 4 ||| m 5) ||| (m 6 ||| m 7)) != 0) = true ↔ _
  simp only [bne_iff_ne, or_ne_zero]
  have := forall8 (p := fun i => m i = 0)
  rw [← not_iff_not, not_exists]
  simp only [not_not, not_or, ne_eq]
  rw [this]; tauto

theorem wasm_all (O : RawOps w (Reg n w)) (h : O.all = allTrue) : AllOk O := by
  intro m _; rw [h]; simp [allTrue]

theorem wasm_any (O : RawOps w (Reg n w)) (h : O.any = anyTrue) : AnyOk O := by
  intro m _; rw [h]; simp [anyTrue]

theorem msa_all (hw : 0 < w) : AllOk (Msa.ops n w) := by
  intro m hm
  show decide (∀ i, Msa.bitNot m i = 0) = true ↔ _
  rw [decide_eq_true_iff]
  refine forall_congr' fun i => ?_
  rw [msa_bitNot]
  have hne : BitVec.allOnes w ≠ 0 := by
    intro h; have := congrArg BitVec.msb h
    rw [allOnes_msb hw] at this; simp at this
  rcases hm i with h | h
  · rw [h]; simpa using hne
  · rw [h]; simpa using hne

theorem sse_any (O : RawOps w (Reg n w)) (h : O.any = Sse.any) : AnyOk O := by
  intro m _
  rw [h]
  unfold Sse.any testz vand map2
  simp only [BitVec.and_self]
  by_cases h0 : ∀ i, m i = 0
  · rw [if_pos h0]; simp [h0]
  · rw [if_neg h0]; simpa using h0

/-- **C33**, reductions: on masks `All` (NEON, WebAssembly, MSA) and `Any` (SSE, NEON, WebAssembly, MSA)
report whether all lanes, or some lane, hold.  Missing: `All` of SSE and AVX and `Any` of AVX, which
do not. -/
theorem C33_reductions_partial :
    AllOk Neon.ops32 ∧ AllOk Neon.ops16 ∧ AllOk Wasm.ops32 ∧ AllOk Wasm.ops16 ∧ AllOk Msa.ops32 ∧
    AllOk Msa.ops16 ∧ AnyOk Sse.ops32 ∧ AnyOk Sse.ops16 ∧ AnyOk Neon.ops32 ∧ AnyOk Neon.ops16 ∧
    AnyOk Wasm.ops32 ∧ AnyOk Wasm.ops16 ∧ AnyOk Msa.ops32 ∧ AnyOk Msa.ops16 :=
  ⟨neon_all32, neon_all16, wasm_all _ rfl, wasm_all _ rfl, msa_all (by decide), msa_all (by decide),
    sse_any _ rfl, sse_any _ rfl, neon_any32, neon_any16, wasm_any _ rfl, wasm_any _ rfl, wasm_any _ rfl,
    wasm_any _ rfl⟩

/-- **C33 fails** (F14): `All` of SSE and AVX is true of every register. -/
theorem C33_all_sse_avx_fails : (∀ a, Sse.ops32.all a = true) ∧ (∀ a, Sse.ops16.all a = true) ∧
    (∀ a, Avx.ops32.all a = true) ∧ (∀ a, Avx.ops16.all a = true) := by
  have key : ∀ {n w : Nat} (a : Reg n w), Sse.all a = true := by
    intro n w a
    have h : ∀ i, andnot a a i = 0 := by
      intro i
      show ~~~(a i) &&& a i = 0
      rw [BitVec.and_comm]; exact BitVec.and_not_self _
    unfold Sse.all testc
    rw [if_pos h]; rfl
  exact ⟨fun a => key a, fun a => key a, fun a => key a, fun a => key a⟩

/-- **C33 fails** (F13): `Any` of AVX is true of every register, zero included. -/
theorem C33_any_avx_fails : (∀ a, Avx.ops32.any a = true) ∧ (∀ a, Avx.ops16.any a = true) := by
  have key : ∀ {n w : Nat} (a : Reg n w), Avx.any a = true := by
    intro n w a
    unfold Avx.any testz
    split <;> rfl
  exact ⟨fun a => key a, fun a => key a⟩

theorem eq_of_all {O : RawOps w (Reg n w)} (hw : 0 < w) (h : LanesSimple O) (ha : AllOk O)
    (a b : Reg n w) : Gen.eq O a b = true ↔ a = b := by
  unfold Gen.eq
  have hm : ∀ i, O.maskIfEqual a b i = maskOf (a i == b i) := by
    intro i; rw [h.maskIfEqual]; unfold Fx.maskIfEqual; rw [maskOf_mask hw]
  have hne : BitVec.allOnes w ≠ 0 := by
    intro h; have := congrArg BitVec.msb h
    rw [allOnes_msb hw] at this; simp at this
  rw [ha _ (fun i => by rw [hm]; exact maskOf_isMask _)]
  constructor
  · intro h1; funext i
    have := h1 i
    rw [hm] at this
    by_contra hc
    exact this (by simp [maskOf, hc])
  · intro h1 i
    rw [hm, h1]; simpa [maskOf] using hne

/-- **C33**, equality of `FixedPoint` values (NEON, WebAssembly, MSA).  Missing: SSE and AVX. -/
theorem C33_equality_partial :
    (∀ a b, Gen.eq Neon.ops32 a b = true ↔ a = b) ∧ (∀ a b, Gen.eq Neon.ops16 a b = true ↔ a = b) ∧
    (∀ a b, Gen.eq Wasm.ops32 a b = true ↔ a = b) ∧ (∀ a b, Gen.eq Wasm.ops16 a b = true ↔ a = b) ∧
    (∀ a b, Gen.eq Msa.ops32 a b = true ↔ a = b) ∧ (∀ a b, Gen.eq Msa.ops16 a b = true ↔ a = b) :=
  ⟨eq_of_all (by decide) neon_ops32.toLanesSimple neon_all32,
    eq_of_all (by decide) neon_ops16.toLanesSimple neon_all16,
    eq_of_all (by decide) wasm_ops32.toLanesSimple (wasm_all _ rfl),
    eq_of_all (by decide) wasm_ops16.toLanesSimple (wasm_all _ rfl),
    eq_of_all (by decide) msa_ops32.toLanesSimple (msa_all (by decide)),
    eq_of_all (by decide) msa_ops16.toLanesSimple (msa_all (by decide))⟩

/-- **C33 fails** (F14): on SSE and AVX any two `FixedPoint` values are equal. -/
theorem C33_equality_sse_avx_fails : (∀ a b, Gen.eq Sse.ops32 a b = true) ∧
    (∀ a b, Gen.eq Sse.ops16 a b = true) ∧ (∀ a b, Gen.eq Avx.ops32 a b = true) ∧
    (∀ a b, Gen.eq Avx.ops16 a b = true) :=
  ⟨fun _ _ => C33_all_sse_avx_fails.1 _, fun _ _ => C33_all_sse_avx_fails.2.1 _,
    fun _ _ => C33_all_sse_avx_fails.2.2.1 _, fun _ _ => C33_all_sse_avx_fails.2.2.2 _⟩

example : Gen.eq Neon.ops32 (splat 5) (fun i => if i = 2 then 6 else 5) = false ∧
    Gen.eq Sse.ops32 (splat 5) (splat 6) = true ∧
    Sse.ops32.any (fun i => if i = 2 then 0xffffffff#32 else 0) = true ∧
    Avx.ops32.any (splat 0) = true := by decide +kernel

end Gemmlowp.Simd
