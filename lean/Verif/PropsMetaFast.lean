import Verif.MetaFast
import Verif.PropsMetaArm
import Verif.PropsEightBit
/-!
# C63: EightBitIntGemm with the fast path on ARM

With `GEMMLOWP_USE_META_FASTPATH` a call leaves the memory that C40 says, which mentions no fast path.
-/
namespace Gemmlowp
namespace Meta

open MetaAsm (FloatOps X quantize)

/-! ## Parts -/

theorem Env.bytes_some {e : Env} {p : Nat} {v : UInt8} (h : e.bytes p = some v) :
    e.readable (p : Nat) = true ∧ (e.mem (p : Nat)).toNat = v.toNat := by
  unfold Env.bytes at h
  split at h
  · rename_i hr
    cases h
    exact ⟨hr, rfl⟩
  · cases h

/-- Rounding ties up (the fast path) and away from zero (the standard path) are the same between 0 and 255. -/
theorem quantized_eq {z mult x y : Int} {shift : Nat} (h1 : 1 ≤ shift)
    (h : Spec.QuantizeDown z mult shift x y) : quantized mult shift (z + x) = Spec.clampTo 0 255 y := by
  obtain ⟨-, -, -, -, hy⟩ := h
  unfold quantized Spec.clampTo
  rw [Int.toNat_natCast] at hy
  have eP : (2 : Int) ^ shift = 2 * 2 ^ (shift - 1) := by rw [← pow_succ']; congr 1; omega
  have hpos : (0 : Int) < 2 ^ (shift - 1) := by positivity
  rw [eP] at hy ⊢
  rw [show z + x = x + z by ring]
  clear eP
  generalize (2 : Int) ^ (shift - 1) = d at *
  generalize (x + z) * mult = w at *
  unfold Spec.NearestAway at hy
  obtain ⟨q, hq⟩ : ∃ q, q = (w + d) / (2 * d) := ⟨_, rfl⟩
  have hq1 : q * (2 * d) ≤ w + d := by rw [hq]; exact Int.ediv_mul_le _ (by omega)
  have hq2 : w + d < (q + 1) * (2 * d) := by rw [hq]; exact Int.lt_ediv_add_one_mul_self _ (by omega)
  rw [← hq]
  split at hy
  · have hqy : q = y := by
      have a1 : 2 * d * (q - y) < 2 * d := by nlinarith
      have a2 : -(2 * d) < 2 * d * (q - y) := by nlinarith
      have : q - y < 1 := by nlinarith
      have : -1 < q - y := by nlinarith
      omega
    rw [hqy]
    split <;> (try split) <;> omega
  · have b1 : q ≤ 0 := by
      by_contra hc
      have : 1 * (2 * d) ≤ q * (2 * d) := Int.mul_le_mul_of_nonneg_right (by omega) (by omega)
      omega
    have b2 : y ≤ 0 := by
      by_contra hc
      have : 1 * (2 * d) ≤ y * (2 * d) := Int.mul_le_mul_of_nonneg_right (by omega) (by omega)
      omega
    split <;> (try split) <;> omega

section
variable {β : Type} {op : Env → LegacyOp (Int → BitVec 8) β} {e : Env} {hw mt : Int} {a b m n k c sz : Nat}
  {lo ro : Int} {tc : Bool} {ldc : Nat} {sc sc' : EbScratch} {p : Nat} {s : Int → BitVec 8} {V : Nat → Nat → β}

/-- The stores of a product with `rows` rows and `cols` columns one after another, entries of `sz` bytes. -/
def StoresAre (ls : List (List (Nat × β))) (res sz rows cols : Nat) (V : Nat → Nat → β) : Prop :=
  ∀ y, y ∈ ls.flatten ↔ ∃ i j, i < rows ∧ j < cols ∧ y = (res + i * (cols * sz) + j * sz, V i j)

theorem metaGemm_spec {req : Int} (h1 : gemmScratch hw mt = .ok req) (h2 : sc.assureSize req p = .ok sc')
    (hrow : isRowMajorOrVector tc ldc m n = true → ∃ ls,
      multiThreadGemm (op (e.withScratch sc')) hw mt sc'.buf a b m n k lo ro (c * sz) s = .ok ls ∧
        StoresAre ls (c * sz) sz m n V)
    (hcol : isRowMajorOrVector tc ldc m n = false → ∃ ls,
      multiThreadGemm (op (e.withScratch sc')) hw mt sc'.buf b a n m k ro lo (c * sz) s = .ok ls ∧
        StoresAre ls (c * sz) sz n m fun i j => V j i) :
    ∃ ls, metaGemm op e hw mt a b m n k lo ro tc ldc (c * sz) sc p s = .ok (ls, sc') ∧
      ∀ y, y ∈ ls.flatten ↔ ∃ r j, r < m ∧ j < n ∧ y = (fastResult tc ldc m n c r j * sz, V r j) := by
  unfold metaGemm fastResult
  by_cases h : isRowMajorOrVector tc ldc m n = true
  · obtain ⟨ls, e1, h3⟩ := hrow h
    rw [if_pos h, h1, ok_bind, h2, ok_bind, e1, ok_bind]
    refine ⟨ls, rfl, fun y => ?_⟩
    rw [h3]
    simp only [if_pos h, Nat.add_mul, Nat.mul_assoc]
  · obtain ⟨ls, e1, h3⟩ := hcol (by simpa using h)
    rw [if_neg h, h1, ok_bind, h2, ok_bind, e1, ok_bind]
    refine ⟨ls, rfl, fun y => ?_⟩
    rw [h3]
    simp only [if_neg h, Nat.add_mul, Nat.mul_assoc]
    constructor
    · rintro ⟨i, j, hi, hj, rfl⟩; exact ⟨j, i, hj, hi, rfl⟩
    · rintro ⟨i, j, hi, hj, rfl⟩; exact ⟨j, i, hj, hi, rfl⟩

end

/-- What the fast path asks for in addition to C40: see findings F23 (leading dimensions of vectors), F28 (scratch
memory), F29 (number of tasks), F12 (size of the scratch memory) and the sum of offsets in an `int`. -/
structure FastOk (hw mt : Int) (ta tb tc : Bool) (x : EbArgs) (z : Int) : Prop where
  ldA : x.m = 1 → ta = false → x.lda = 1
  ldB : x.n = 1 → tb = true → x.ldb = 1
  ldC : x.m = 1 → tc = false → x.ldc = 1
  ldC' : x.n = 1 → tc = true → x.ldc = 1
  rows : 0 < x.m
  cols : 0 < x.n
  sizes : 12 ≤ x.k ∨ (x.m * x.k ≤ 262144 ∧ x.n * x.k ≤ 262144)
  product : x.m * x.n * x.k ≤ 2147483647
  threads : 1 ≤ resolveMaxThreads hw mt ∧ resolveMaxThreads hw mt ≤ 2047
  offset : InI32 (z + x.k * x.aOffset.toInt * x.bOffset.toInt)

section
variable {e : Env} {env : BitDepthParams → Gemmlowp.Env} {x : EbArgs} {ta tb tc : Bool} {bd : BitDepthSetting}
  {A B : Nat → Nat → UInt8} {hw mt : Int} {sc : EbScratch} {z : Int}

theorem FastOk.scratch (h : FastOk hw mt ta tb tc x z) (hs : sc.Ok) (p : Nat) :
    ∃ req sc', gemmScratch hw mt = .ok req ∧ sc.assureSize req p = .ok sc' ∧ sc'.Ok ∧
      (e.withScratch sc').Aligned ∧
      ((sc'.buf : Nat) : Int) + max 1 (resolveMaxThreads hw mt) * 1048576 ≤ ((e.withScratch sc').cap : Nat) := by
  obtain ⟨h1, h2⟩ := h.threads
  obtain ⟨sc', a1, a2, a3, -⟩ := EbScratch.assureSize_ok hs
    (req := resolveMaxThreads hw mt * (4 * kMaxCacheFriendlySize : Nat)) (by
      show resolveMaxThreads hw mt * (1048576 : Nat) + 32 ≤ _; omega) p
  refine ⟨_, sc', ?_, a1, a2, fun _ => a2.2.2, ?_⟩
  · unfold gemmScratch
    rw [cint_ok]
    show InI32 (resolveMaxThreads hw mt * (1048576 : Nat))
    unfold InI32; omega
  · have h4 := a2.2.1
    have h3 : resolveMaxThreads hw mt * (1048576 : Nat) ≤ sc'.size := a3
    unfold Env.withScratch
    push_cast
    omega

theorem FastOk.offsets (h : FastOk hw mt ta tb tc x z) (hk : x.k ≤ 2048) (hA : -255 ≤ x.aOffset.toInt ∧ x.aOffset.toInt ≤ 0)
    (hB : -255 ≤ x.bOffset.toInt ∧ x.bOffset.toInt ≤ 0) : OffsetsFit z x.k x.aOffset.toInt x.bOffset.toInt := by
  have h0 := h.offset
  generalize x.aOffset.toInt = u at *
  generalize x.bOffset.toInt = v at *
  generalize x.k = k at *
  have hk' : (k : Int) ≤ 2048 := by exact_mod_cast hk
  have hk0 : (0 : Int) ≤ k := Int.natCast_nonneg k
  have b1 : -522240 ≤ (k : Int) * u ∧ (k : Int) * u ≤ 0 := by constructor <;> nlinarith
  have b2 : -522240 ≤ (k : Int) * v ∧ (k : Int) * v ≤ 0 := by constructor <;> nlinarith
  have b3 : 0 ≤ (k : Int) * u * v ∧ (k : Int) * u * v ≤ 133171200 := by constructor <;> nlinarith
  refine ⟨?_, ?_, ?_, h0⟩ <;> unfold InI32 <;> omega

/-- The sums that the fast path computes. -/
theorem fast_sum (h : EbCall ta tb tc x A B) (hA : x.aMem = e.bytes) (hB : x.bMem = e.bytes)
    (hl : ∀ a i d, i < x.m → d < x.k → fastLhs a x.k i d = entryAt a x.lda ta i d)
    (hr : ∀ b d j, d < x.k → j < x.n → fastRhs b x.k d j = entryAt b x.ldb tb d j) {i j : Nat} (hi : i < x.m)
    (hj : j < x.n) : dotOffset e.mem x.k x.aOffset.toInt x.bOffset.toInt (x.a + i * x.k) (x.b + j * x.k) =
      x.sum A B i j := by
  unfold dotOffset EbArgs.sum
  rw [sumTo_eq_sum]
  refine Finset.sum_congr rfl fun d hd => ?_
  have hd : d < x.k := by simpa using hd
  have h1 := h.a i d hi hd
  have h2 := h.b d j hd hj
  rw [hA, ← hl _ _ _ hi hd] at h1
  rw [hB, ← hr _ _ _ hd hj] at h2
  have h3 := (Env.bytes_some h1).2
  have h4 := (Env.bytes_some h2).2
  unfold fastLhs at h3
  unfold fastRhs at h4
  rw [h3, h4]

theorem dotOffset_comm (mem : Int → BitVec 8) (k : Nat) (lo ro : Int) (l r : Nat) :
    dotOffset mem k lo ro l r = dotOffset mem k ro lo r l := by
  unfold dotOffset
  congr 1
  funext q
  exact Int.mul_comm _ _

/-- The conditions on the sizes for the product and for the one with the operands exchanged. -/
theorem FastOk.sizesOk (h : FastOk hw mt ta tb tc x z) (h8 : 8 ≤ x.k) (hk : x.k ≤ 2048) :
    SizesOk x.n x.k ∧ SizesOk x.m x.k := by
  unfold SizesOk
  rcases h.sizes with h1 | ⟨h1, h2⟩
  · exact ⟨⟨hk, .inl h1⟩, ⟨hk, .inl h1⟩⟩
  · exact ⟨⟨hk, .inr ⟨h8, h2⟩⟩, ⟨hk, .inr ⟨h8, h1⟩⟩⟩

/-- What the stores of the fast path leave in memory. -/
theorem fast_memory {t : Trace Int} {V : Nat → Nat → Int} (hld : LdOk tc x.m x.n x.ldc)
    (h : ∀ y, y ∈ t ↔ ∃ r j, r < x.m ∧ j < x.n ∧ y = (entryAt x.c x.ldc tc r j, V r j)) (mem : Nat → Int) :
    (∀ r j, r < x.m → j < x.n → applyStores mem t (entryAt x.c x.ldc tc r j) = V r j) ∧
      ∀ a, (∀ r j, r < x.m → j < x.n → a ≠ entryAt x.c x.ldc tc r j) → applyStores mem t a = mem a := by
  constructor
  · intro r j hr hj
    apply applyStores_hit
    · intro w hw he
      obtain ⟨r', j', h1, h2, rfl⟩ := (h w).1 hw
      dsimp only at he ⊢
      have := MatrixMap.addr_inj (strideOk_of (base := x.c) hld) (r := r') (c := j') (r' := r) (c' := j) h1 h2 hr hj (by
        rw [addr_entryAt, addr_entryAt]; exact he)
      rw [this.1, this.2]
    · exact ⟨_, (h _).2 ⟨r, j, hr, hj, rfl⟩, rfl⟩
  · intro a ha
    apply applyStores_other
    intro w hw he
    obtain ⟨r', j', h1, h2, rfl⟩ := (h w).1 hw
    exact ha r' j' h1 h2 he.symm

/-- **C63**, the fast path without conditions on the data: when it is taken, its tasks store for every entry of the
result, at the place that the flag and the leading dimension say, what the kernels make of the sum modulo 2^32. -/
theorem C63_fast_path_wrapping_partial (h : EbCall ta tb tc x A B) (hA : x.aMem = e.bytes) (hB : x.bMem = e.bytes)
    (hc : canHandleMetaFastpath ta tb tc x.m x.n x.k x.lda x.ldb x.ldc bd = true) (hs : sc.Ok)
    {cOffset cMult cShift : BitVec 32} (ho : FastOk hw mt ta tb tc x cOffset.toInt) (h1 : 1 ≤ cShift.toInt)
    (h31 : cShift.toInt ≤ 31) (p : Nat) (s : Int → BitVec 8) :
    ∃ ls sc', metaGemmQuantized8Bit e hw mt x.a x.b x.m x.n x.k x.aOffset.toInt x.bOffset.toInt cOffset.toInt
        cMult.toInt cShift.toInt tc x.ldc x.c sc p s = .ok (ls, sc') ∧ sc'.Ok ∧
      ∀ y, y ∈ ls.flatten ↔ ∃ r j, r < x.m ∧ j < x.n ∧ y = (entryAt x.c x.ldc tc r j,
        quantize cMult.toInt (2 ^ (cShift.toInt.toNat - 1)) (-cShift.toInt)
          (BitVec.ofInt 32 (cOffset.toInt + x.sum A B r j))) := by
  obtain ⟨c1, c2, c3⟩ := C55_fast_path_partial hc ho.ldA ho.ldB ho.ldC ho.ldC'
  obtain ⟨-, h8, hk, -⟩ := C55_depths hc
  obtain ⟨req, sc', s1, s2, s3, s5, s4⟩ := ho.scratch (e := e) hs p
  have hf := ho.offsets hk h.aOffset h.bOffset
  obtain ⟨z1, z2⟩ := ho.sizesOk h8 hk
  obtain ⟨sh, hsh⟩ : ∃ sh : Nat, cShift.toInt = sh := ⟨cShift.toInt.toNat, by omega⟩
  rw [hsh] at h1 h31 ⊢
  rw [Int.toNat_natCast]
  have hsum : ∀ {i j}, i < x.m → j < x.n → dotOffset (e.withScratch sc').mem x.k x.aOffset.toInt x.bOffset.toInt
      (x.a + i * x.k) (x.b + j * x.k) = x.sum A B i j := fun hi hj => fast_sum h hA hB c1 c2 hi hj
  have rA : ∀ i, i < x.m → ∀ q, q < x.k → (e.withScratch sc').readable (x.a + i * x.k + q : Nat) = true := by
    intro i hi q hq
    have := h.a i q hi hq
    rw [hA, ← c1 _ _ _ hi hq] at this
    exact (Env.bytes_some this).1
  have rB : ∀ i, i < x.n → ∀ q, q < x.k → (e.withScratch sc').readable (x.b + i * x.k + q : Nat) = true := by
    intro i hi q hq
    have := h.b q i hq hi
    rw [hB, ← c2 _ _ _ hq hi] at this
    exact (Env.bytes_some this).1
  obtain ⟨ls, e1, h2⟩ := metaGemm_spec (op := fun e => q8Legacy e cOffset.toInt cMult.toInt sh) (e := e) (s := s)
    (a := x.a) (b := x.b) (m := x.m) (n := x.n) (k := x.k) (c := x.c) (lo := x.aOffset.toInt) (ro := x.bOffset.toInt)
    (tc := tc) (ldc := x.ldc) (sz := 1)
    (V := fun r j => quantize cMult.toInt (2 ^ (sh - 1)) (-(sh : Int)) (BitVec.ofInt 32 (cOffset.toInt + x.sum A B r j))) s1 s2
    (by
      intro _
      obtain ⟨ls, e1, h2⟩ := C62_legacy_q8_wrapping (e := e.withScratch sc') (result := x.c * 1) (hw := hw) (maxThreads := mt)
        (scratch := sc'.buf) (lhs := x.a) (rhs := x.b) (m := x.m) (n := x.n) (mult := cMult.toInt)
        (shift := sh) (z := cOffset.toInt) (k := x.k) (lo := x.aOffset.toInt) (ro := x.bOffset.toInt) s5 (by omega) (by omega)
        hf ho.rows ho.cols z1 ho.product rA rB ⟨0, rfl⟩ s4 s
      refine ⟨ls, e1, fun y => ?_⟩
      rw [h2]
      constructor
      · rintro ⟨i, j, hi, hj, rfl⟩
        exact ⟨i, j, hi, hj, by dsimp only; rw [← hsum hi hj, Nat.mul_one x.n, Nat.mul_one j]; rfl⟩
      · rintro ⟨i, j, hi, hj, rfl⟩
        exact ⟨i, j, hi, hj, by dsimp only; rw [← hsum hi hj, Nat.mul_one x.n, Nat.mul_one j]; rfl⟩)
    (by
      intro _
      obtain ⟨ls, e1, h2⟩ := C62_legacy_q8_wrapping (e := e.withScratch sc') (result := x.c * 1) (hw := hw) (maxThreads := mt)
        (scratch := sc'.buf) (lhs := x.b) (rhs := x.a) (m := x.n) (n := x.m) (mult := cMult.toInt)
        (shift := sh) (z := cOffset.toInt) (k := x.k) (lo := x.bOffset.toInt) (ro := x.aOffset.toInt) s5 (by omega) (by omega)
        hf.swap ho.cols ho.rows z2 (by rw [Nat.mul_comm x.n]; exact ho.product) rB rA ⟨0, rfl⟩ s4 s
      refine ⟨ls, e1, fun y => ?_⟩
      rw [h2]
      constructor
      · rintro ⟨i, j, hi, hj, rfl⟩
        exact ⟨i, j, hi, hj, by dsimp only; rw [← hsum hj hi, dotOffset_comm, Nat.mul_one x.m, Nat.mul_one j]; rfl⟩
      · rintro ⟨i, j, hi, hj, rfl⟩
        exact ⟨i, j, hi, hj, by dsimp only; rw [← hsum hj hi, dotOffset_comm, Nat.mul_one x.m, Nat.mul_one j]; rfl⟩)
  refine ⟨ls, sc', ?_, s3, fun y => ?_⟩
  · rw [Nat.mul_one] at e1; exact e1
  · rw [h2]
    constructor
    · rintro ⟨i, j, hi, hj, rfl⟩
      exact ⟨i, j, hi, hj, by rw [c3 _ _ _ hi hj, Nat.mul_one]⟩
    · rintro ⟨i, j, hi, hj, rfl⟩
      exact ⟨i, j, hi, hj, by rw [c3 _ _ _ hi hj, Nat.mul_one]⟩

/-- **C63**, the fast path itself: when it is taken, its tasks store for every entry of the result, at the place that
the flag and the leading dimension say, the quantized sum. -/
theorem C63_fast_path_partial (h : EbCall ta tb tc x A B) (hA : x.aMem = e.bytes) (hB : x.bMem = e.bytes)
    (hc : canHandleMetaFastpath ta tb tc x.m x.n x.k x.lda x.ldb x.ldc bd = true) (hs : sc.Ok)
    {cOffset cMult cShift : BitVec 32} (ho : FastOk hw mt ta tb tc x cOffset.toInt) (h1 : 1 ≤ cShift.toInt)
    (h31 : cShift.toInt ≤ 31)
    (hfit : ∀ r j, r < x.m → j < x.n →
      InI32 ((x.sum A B r j + cOffset.toInt) * cMult.toInt + 2 ^ (cShift.toInt.toNat - 1)))
    (p : Nat) (s : Int → BitVec 8) :
    ∃ ls sc', metaGemmQuantized8Bit e hw mt x.a x.b x.m x.n x.k x.aOffset.toInt x.bOffset.toInt cOffset.toInt
        cMult.toInt cShift.toInt tc x.ldc x.c sc p s = .ok (ls, sc') ∧ sc'.Ok ∧
      ∀ y, y ∈ ls.flatten ↔ ∃ r j, r < x.m ∧ j < x.n ∧ y = (entryAt x.c x.ldc tc r j,
        BitVec.ofInt 8 (quantized cMult.toInt cShift.toInt.toNat (cOffset.toInt + x.sum A B r j))) := by
  obtain ⟨ls, sc', e1, e2, e3⟩ := C63_fast_path_wrapping_partial h hA hB hc hs ho h1 h31 (cMult := cMult) p s
  refine ⟨ls, sc', e1, e2, fun y => ?_⟩
  rw [e3]
  have hq : ∀ r j, r < x.m → j < x.n → quantize cMult.toInt (2 ^ (cShift.toInt.toNat - 1)) (-cShift.toInt)
      (BitVec.ofInt 32 (cOffset.toInt + x.sum A B r j)) = BitVec.ofInt 8
        (quantized cMult.toInt cShift.toInt.toNat (cOffset.toInt + x.sum A B r j)) := by
    intro r j hr hj
    have := quantize_eq (mult := cMult.toInt) (shift := cShift.toInt.toNat) (x := cOffset.toInt + x.sum A B r j)
      (by omega) (by omega) (by rw [Int.add_comm cOffset.toInt]; exact hfit r j hr hj)
    rwa [Int.toNat_of_nonneg (by omega)] at this
  constructor
  · rintro ⟨r, j, hr, hj, rfl⟩
    exact ⟨r, j, hr, hj, congrArg (Prod.mk _) (hq r j hr hj)⟩
  · rintro ⟨r, j, hr, hj, rfl⟩
    exact ⟨r, j, hr, hj, (congrArg (Prod.mk _) (hq r j hr hj)).symm⟩

/-- **C63.**  `EightBitIntGemm` with the fast path: for all flags, sizes, leading dimensions, contents, histories of the
scratch memory and schedules, whichever path is taken, every entry of `c` becomes the quantized sum and the rest of the
memory is unchanged.  The first hypotheses and the result are those of C40; `FastOk` and the last two
are for calls that take the fast path. -/
theorem C63_eight_bit_int_gemm_partial (h : EbCall ta tb tc x A B) (hA : x.aMem = e.bytes) (hB : x.bMem = e.bytes)
    (hm : Machine { env defaultL8R8 with maxThreads := mt } defaultL8R8 x.m x.n x.k) (hs : sc.Ok)
    {cOffset cMult cShift : BitVec 32} {q : Nat → Nat → Int}
    (hq : ∀ r j, r < x.m → j < x.n →
      Spec.QuantizeDown cOffset.toInt cMult.toInt cShift.toInt (x.sum A B r j) (q r j))
    (ho : canHandleMetaFastpath ta tb tc x.m x.n x.k x.lda x.ldb x.ldc bd = true →
      FastOk hw mt ta tb tc x cOffset.toInt ∧ 1 ≤ cShift.toInt ∧ ∀ r j, r < x.m → j < x.n →
        InI32 ((x.sum A B r j + cOffset.toInt) * cMult.toInt + 2 ^ (cShift.toInt.toNat - 1)))
    (p : Nat) (s : Int → BitVec 8) :
    ∃ w sc', eightBitIntGemmMeta e hw env mt ta tb tc x cOffset cMult cShift bd sc p s = .ok (w, sc') ∧ sc'.Ok ∧
      (∃ t, w.Outcome t) ∧ ∀ t, w.Outcome t → ∀ mem : Nat → Int,
        (∀ r j, r < x.m → j < x.n →
          applyStores mem t (entryAt x.c x.ldc tc r j) = Spec.clampTo 0 255 (q r j)) ∧
        (∀ p, (∀ r j, r < x.m → j < x.n → p ≠ entryAt x.c x.ldc tc r j) → applyStores mem t p = mem p) := by
  unfold eightBitIntGemmMeta
  by_cases hc : canHandleMetaFastpath ta tb tc x.m x.n x.k x.lda x.ldb x.ldc bd = true
  · obtain ⟨o1, o2, o3⟩ := ho hc
    obtain ⟨q1, -⟩ := hq 0 0 o1.rows o1.cols
    have h31 := (hq 0 0 o1.rows o1.cols).2.1
    obtain ⟨ls, sc', e1, e2, e3⟩ := C63_fast_path_partial h hA hB hc hs o1 o2 h31 o3 p s
    rw [if_pos hc, e1, ok_bind]
    refine ⟨_, sc', rfl, e2, ⟨_, .refl _⟩, fun t ht mem => ?_⟩
    refine fast_memory h.ld (V := fun r j => Spec.clampTo 0 255 (q r j)) (fun y => ?_) mem
    rw [List.Perm.mem_iff ht, List.mem_map]
    have hv : ∀ r j, r < x.m → j < x.n → ((BitVec.ofInt 8 (quantized cMult.toInt cShift.toInt.toNat
        (cOffset.toInt + x.sum A B r j))).toNat : Int) = Spec.clampTo 0 255 (q r j) := by
      intro r j hr hj
      have hq' := hq r j hr hj
      rw [← Int.toNat_of_nonneg q1] at hq'
      rw [quantized_eq (by omega) hq', BitVec.toNat_ofInt]
      have : 0 ≤ Spec.clampTo 0 255 (q r j) ∧ Spec.clampTo 0 255 (q r j) ≤ 255 := by
        unfold Spec.clampTo; split <;> (try split) <;> omega
      omega
    constructor
    · rintro ⟨w, hw, rfl⟩
      obtain ⟨r, j, hr, hj, rfl⟩ := (e3 w).1 hw
      exact ⟨r, j, hr, hj, by rw [← hv r j hr hj]⟩
    · rintro ⟨r, j, hr, hj, rfl⟩
      exact ⟨_, (e3 _).2 ⟨r, j, hr, hj, rfl⟩, by rw [← hv r j hr hj]⟩
  · obtain ⟨ps, e1, e2, e3⟩ := C40_eight_bit_int_gemm (bd := bd) h hm hq
    rw [if_neg hc, e1, ok_bind]
    exact ⟨_, sc, rfl, hs, e2, e3⟩

/-- **C63**, a `float` result: the fast path leaves at every entry (of four bytes) the sum converted and multiplied by
`c_offset` with the machine's operations, and leaves the rest of the memory unchanged. -/
theorem C63_float_partial (h : EbCall ta tb tc x A B) (hA : x.aMem = e.bytes) (hB : x.bMem = e.bytes)
    (hc : canHandleMetaFastpath ta tb tc x.m x.n x.k x.lda x.ldb x.ldc bd = true) (hs : sc.Ok)
    (ho : FastOk hw mt ta tb tc x 0) (scale : BitVec 32) (p : Nat) (s : Int → BitVec 8) :
    ∃ ls sc', metaGemmFloat e hw mt x.a x.b x.m x.n x.k x.aOffset.toInt x.bOffset.toInt scale tc x.ldc (x.c * 4)
        sc p s = .ok (ls, sc') ∧ sc'.Ok ∧ ∀ t, t.Perm ls.flatten → ∀ mem : Nat → BitVec 32,
        (∀ r j, r < x.m → j < x.n → memAfter mem t (entryAt x.c x.ldc tc r j * 4) =
          e.f.mul (e.f.ofInt (BitVec.ofInt 32 (x.sum A B r j))) scale) ∧
        ∀ a, (∀ r j, r < x.m → j < x.n → a ≠ entryAt x.c x.ldc tc r j * 4) → memAfter mem t a = mem a := by
  obtain ⟨c1, c2, c3⟩ := C55_fast_path_partial hc ho.ldA ho.ldB ho.ldC ho.ldC'
  obtain ⟨-, h8, hk, -⟩ := C55_depths hc
  obtain ⟨req, sc', s1, s2, s3, s5, s4⟩ := ho.scratch (e := e) hs p
  have hf := ho.offsets hk h.aOffset h.bOffset
  obtain ⟨z1, z2⟩ := ho.sizesOk h8 hk
  have hsum : ∀ {i j}, i < x.m → j < x.n → dotOffset (e.withScratch sc').mem x.k x.aOffset.toInt x.bOffset.toInt
      (x.a + i * x.k) (x.b + j * x.k) = x.sum A B i j := fun hi hj => fast_sum h hA hB c1 c2 hi hj
  have rA : ∀ i, i < x.m → ∀ q, q < x.k → (e.withScratch sc').readable (x.a + i * x.k + q : Nat) = true := by
    intro i hi q hq
    have := h.a i q hi hq
    rw [hA, ← c1 _ _ _ hi hq] at this
    exact (Env.bytes_some this).1
  have rB : ∀ i, i < x.n → ∀ q, q < x.k → (e.withScratch sc').readable (x.b + i * x.k + q : Nat) = true := by
    intro i hi q hq
    have := h.b q i hq hi
    rw [hB, ← c2 _ _ _ hq hi] at this
    exact (Env.bytes_some this).1
  obtain ⟨ls, e1, h2⟩ := metaGemm_spec (op := fun e => f32Legacy e scale) (e := e) (s := s)
    (a := x.a) (b := x.b) (m := x.m) (n := x.n) (k := x.k) (c := x.c) (lo := x.aOffset.toInt) (ro := x.bOffset.toInt)
    (tc := tc) (ldc := x.ldc) (sz := 4)
    (V := fun r j => e.f.mul (e.f.ofInt (BitVec.ofInt 32 (x.sum A B r j))) scale) s1 s2
    (by
      intro _
      obtain ⟨ls, e1, h2⟩ := C62_legacy_f32 (e := e.withScratch sc') (result := x.c * 4) (hw := hw) (maxThreads := mt)
        (scratch := sc'.buf) (lhs := x.a) (rhs := x.b) (m := x.m) (n := x.n) (scale := scale) (k := x.k)
        (lo := x.aOffset.toInt) (ro := x.bOffset.toInt) s5 hf ho.rows ho.cols z1 ho.product rA rB ⟨0, rfl⟩ s4 s
      refine ⟨ls, e1, fun y => ?_⟩
      rw [h2]
      constructor
      · rintro ⟨i, j, hi, hj, rfl⟩
        exact ⟨i, j, hi, hj, by dsimp only; rw [← hsum hi hj]; rfl⟩
      · rintro ⟨i, j, hi, hj, rfl⟩
        exact ⟨i, j, hi, hj, by dsimp only; rw [← hsum hi hj]; rfl⟩)
    (by
      intro _
      obtain ⟨ls, e1, h2⟩ := C62_legacy_f32 (e := e.withScratch sc') (result := x.c * 4) (hw := hw) (maxThreads := mt)
        (scratch := sc'.buf) (lhs := x.b) (rhs := x.a) (m := x.n) (n := x.m) (scale := scale) (k := x.k)
        (lo := x.bOffset.toInt) (ro := x.aOffset.toInt) s5 hf.swap ho.cols ho.rows z2
        (by rw [Nat.mul_comm x.n]; exact ho.product) rB rA ⟨0, rfl⟩ s4 s
      refine ⟨ls, e1, fun y => ?_⟩
      rw [h2]
      constructor
      · rintro ⟨i, j, hi, hj, rfl⟩
        exact ⟨i, j, hi, hj, by dsimp only; rw [← hsum hj hi, dotOffset_comm]; rfl⟩
      · rintro ⟨i, j, hi, hj, rfl⟩
        exact ⟨i, j, hi, hj, by dsimp only; rw [← hsum hj hi, dotOffset_comm]; rfl⟩)
  refine ⟨ls, sc', e1, s3, fun t ht mem => ⟨?_, ?_⟩⟩
  · intro r j hr hj
    refine memAfter_of_functional (ht.mem_iff.2 ((h2 _).2 ⟨r, j, hr, hj, by rw [c3 _ _ _ hr hj]⟩)) (fun w hw => ?_) mem
    obtain ⟨r', j', hr', hj', he⟩ := (h2 _).1 (ht.mem_iff.1 hw)
    rw [c3 _ _ _ hr' hj'] at he
    have he1 : entryAt x.c x.ldc tc r j = entryAt x.c x.ldc tc r' j' := by
      have := congrArg Prod.fst he
      dsimp only at this
      omega
    obtain ⟨rfl, rfl⟩ := MatrixMap.addr_inj (strideOk_of (base := x.c) h.ld) (r := r) (c := j) (r' := r') (c' := j')
      hr hj hr' hj' (by rw [addr_entryAt, addr_entryAt]; exact he1)
    exact congrArg Prod.snd he
  · intro a ha
    refine memAfter_other (fun w hw => ?_) mem
    obtain ⟨r', j', hr', hj', he⟩ := (h2 _).1 (ht.mem_iff.1 hw)
    rw [c3 _ _ _ hr' hj'] at he
    exact ha r' j' hr' hj' (congrArg Prod.fst he)

/-- **C63**, a `float` result: the fast path and the standard path leave the same floats, if the compiler translates
the conversion and multiplication of the standard path to the same two instructions. -/
theorem C63_float_same_partial (h : EbCall ta tb tc x A B) (hA : x.aMem = e.bytes) (hB : x.bMem = e.bytes)
    (hc : canHandleMetaFastpath ta tb tc x.m x.n x.k x.lda x.ldb x.ldc bd = true) (hs : sc.Ok)
    (ho : FastOk hw mt ta tb tc x 0)
    (hm : Machine { env defaultL8R8 with maxThreads := mt } defaultL8R8 x.m x.n x.k)
    (hsz : 4 * ((if tc then x.m else x.n) * x.ldc) + 32 ≤ 2147483647) (scale : BitVec 32) (p : Nat)
    (s : Int → BitVec 8) :
    ∃ ls sc1 ps sc2, metaGemmFloat e hw mt x.a x.b x.m x.n x.k x.aOffset.toInt x.bOffset.toInt scale tc x.ldc (x.c * 4)
        sc p s = .ok (ls, sc1) ∧ eightBitIntGemmFloat env mt ta tb tc x bd sc p = .ok (ps, sc2) ∧
      ∀ t t', t.Perm ls.flatten → Outcomes ps t' → ∀ (temp : Nat → Int) (mem : Nat → BitVec 32), ∃ mem',
        convertResult (fun v => e.f.mul (e.f.ofInt (BitVec.ofInt 32 v)) scale) tc x.m x.n x.c x.ldc
          { size := sc2.room / 4, get := applyStores temp t' } (fun a => mem (a * 4)) = .ok mem' ∧
        ∀ a, memAfter mem t (a * 4) = mem' a := by
  obtain ⟨ls, sc1, e1, -, h1⟩ := C63_float_partial h hA hB hc hs ho scale p s
  obtain ⟨ps, sc2, e2, -, -, h2⟩ := C40_float (bd := bd) (fun v => e.f.mul (e.f.ofInt (BitVec.ofInt 32 v)) scale) h hm hs
    p hsz
  refine ⟨ls, sc1, ps, sc2, e1, e2, fun t t' ht ht' temp mem => ?_⟩
  obtain ⟨mem', e3, h3, h4⟩ := (h2 t' ht').2 temp (fun a => mem (a * 4))
  refine ⟨mem', e3, fun a => ?_⟩
  obtain ⟨h5, h6⟩ := h1 t ht mem
  by_cases hp : ∃ r j, r < x.m ∧ j < x.n ∧ a = entryAt x.c x.ldc tc r j
  · obtain ⟨r, j, hr, hj, rfl⟩ := hp
    rw [h5 r j hr hj, h3 r j hr hj]
  · rw [h6 _ (fun r j hr hj he => hp ⟨r, j, hr, hj, by omega⟩), h4 _ (fun r j hr hj he => hp ⟨r, j, hr, hj, he⟩)]

end

/-! ## A case that meets the hypotheses -/

/-- A 5 x 16 matrix of rows at 0 times a 16 x 3 matrix of columns at 80; the result consists of columns. -/
def fastSample (ar : Arch) (f : FloatOps) (v : Nat → Vec.VReg) (x : X → Int) : Env :=
  ⟨ar, f, fun a => BitVec.ofInt 8 a, fun a => decide (0 ≤ a ∧ a < 128), 1024, 0, v, x⟩

def fastSampleArgs (e : Env) : EbArgs :=
  { m := 5, n := 3, k := 16, aMem := e.bytes, a := 0, aOffset := -7, lda := 16, bMem := e.bytes, b := 80,
    bOffset := -100, ldb := 16, c := 9, ldc := 5 }

example (ar : Arch) (f : FloatOps) (v : Nat → Vec.VReg) (x : X → Int) :
    EbCall true false false (fastSampleArgs (fastSample ar f v x)) (fun i d => UInt8.ofNat (i * 16 + d))
      (fun d j => UInt8.ofNat (80 + j * 16 + d)) ∧
    canHandleMetaFastpath true false false 5 3 16 16 16 5 .a8b8 = true ∧
    FastOk 4 0 true false false (fastSampleArgs (fastSample ar f v x)) 1000 := by
  have key : ∀ p, p < 128 → (fastSample ar f v x).bytes p = some (UInt8.ofNat p) := by
    intro p hp
    have hr : (fastSample ar f v x).readable (p : Nat) = true := by
      simp only [fastSample]
      exact decide_eq_true ⟨by omega, by omega⟩
    unfold Env.bytes
    rw [if_pos hr]
    rfl
  refine ⟨⟨?_, ?_, show 5 ≤ 5 by decide, show 0 < 16 ∧ 16 ≤ 33024 by decide,
    show -255 ≤ (-7#32).toInt ∧ (-7#32).toInt ≤ 0 by decide,
    show -255 ≤ (-100#32).toInt ∧ (-100#32).toInt ≤ 0 by decide⟩, by decide, ?_⟩
  · intro i d hi hd
    simp only [fastSampleArgs] at hi hd
    simp only [fastSampleArgs, entryAt, if_pos]
    rw [key _ (by omega), Nat.zero_add]
  · intro d j hd hj
    simp only [fastSampleArgs] at hj hd
    simp only [fastSampleArgs, entryAt, Bool.false_eq_true, if_false]
    rw [key _ (by omega)]
  · exact ⟨fun h => absurd h (show ¬ 5 = 1 by decide), fun h => absurd h (show ¬ 3 = 1 by decide),
      fun h => absurd h (show ¬ 5 = 1 by decide), fun h => absurd h (show ¬ 3 = 1 by decide), show 0 < 5 by decide,
      show 0 < 3 by decide, .inl (show 12 ≤ 16 by decide), show 5 * 3 * 16 ≤ 2147483647 by decide,
      ⟨by decide, by decide⟩,
      show InI32 (1000 + (16 : Nat) * (-7#32).toInt * (-100#32).toInt) by unfold InI32; decide⟩

/-! ## Where it fails -/

/-- A 2 x 8 matrix times an 8 x 2 matrix, all entries 64, without offsets; rows of the result without gaps. -/
def roundingCall (ar : Arch) (f : FloatOps) (v : Nat → Vec.VReg) (x : X → Int) : Env := ⟨ar, f, fun _ => 64, fun _ => true, 1024, 0, v, x⟩

def roundingArgs (e : Env) : EbArgs :=
  { m := 2, n := 2, k := 8, aMem := e.bytes, a := 0, aOffset := 0, lda := 8, bMem := e.bytes, b := 80,
    bOffset := 0, ldb := 8, c := 9, ldc := 2 }

/-- **C63**, finding F36: the fast path adds the rounding constant to the product modulo 2^32, the standard path does
not overflow there.  With shift 31, multiplier 2^15 and sums of 2^15, for which C40 says that every entry becomes 1,
the fast path is taken and makes every entry 0. -/
theorem C63_rounding_fails (ar : Arch) (f : FloatOps) (v : Nat → Vec.VReg) (x : X → Int) (p : Nat) (s : Int → BitVec 8) :
    (∀ r j, Spec.QuantizeDown 0 32768 31 ((roundingArgs (roundingCall ar f v x)).sum (fun _ _ => 64) (fun _ _ => 64) r j)
      1) ∧
    ∃ ls sc', metaGemmQuantized8Bit (roundingCall ar f v x) 4 1 0 80 2 2 8 0 0 0 32768 31 true 2 9 .init p s =
        .ok (ls, sc') ∧ ∀ y, y ∈ ls.flatten ↔ ∃ r j, r < 2 ∧ j < 2 ∧ y = (9 + r * 2 + j, 0#8) := by
  have hsum : ∀ r j, (roundingArgs (roundingCall ar f v x)).sum (fun _ _ => 64) (fun _ _ => 64) r j = 32768 := by
    intro r j
    show (∑ d ∈ Finset.range 8, (((64 : UInt8).toNat : Int) + (0 : BitVec 32).toInt) *
      (((64 : UInt8).toNat : Int) + (0 : BitVec 32).toInt)) = 32768
    rw [← sumTo_eq_sum]
    decide
  constructor
  · intro r j
    rw [hsum]
    refine ⟨by decide, by decide, by unfold InI32; decide, by unfold InI32; decide, ?_⟩
    unfold Spec.NearestAway
    decide
  · obtain ⟨ls, sc', e1, -, h2⟩ := C63_fast_path_wrapping_partial (e := roundingCall ar f v x)
      (x := roundingArgs (roundingCall ar f v x)) (ta := true) (tb := false) (tc := true) (bd := .a8b8) (hw := 4) (mt := 1)
      (A := fun _ _ => 64) (B := fun _ _ => 64) (sc := .init) (cOffset := 0#32) (cMult := 32768#32) (cShift := 31#32)
      ⟨fun _ _ _ _ => rfl, fun _ _ _ _ => rfl, show 2 ≤ 2 by decide, show 0 < 8 ∧ 8 ≤ 33024 by decide,
        show -255 ≤ (0#32).toInt ∧ (0#32).toInt ≤ 0 by decide, show -255 ≤ (0#32).toInt ∧ (0#32).toInt ≤ 0 by decide⟩
      rfl rfl rfl ⟨by decide, by decide, by decide⟩
      ⟨fun h => absurd h (show ¬ 2 = 1 by decide), fun h => absurd h (show ¬ 2 = 1 by decide),
        fun h => absurd h (show ¬ 2 = 1 by decide), fun h => absurd h (show ¬ 2 = 1 by decide), show 0 < 2 by decide,
        show 0 < 2 by decide, .inr (show 2 * 8 ≤ 262144 ∧ 2 * 8 ≤ 262144 by decide),
        show 2 * 2 * 8 ≤ 2147483647 by decide, ⟨by decide, by decide⟩,
        show InI32 ((0#32).toInt + (8 : Nat) * (0#32).toInt * (0#32).toInt) by unfold InI32; decide⟩
      (by decide) (by decide) p s
    refine ⟨ls, sc', e1, fun y => ?_⟩
    rw [h2]
    constructor
    · rintro ⟨r, j, hr, hj, rfl⟩
      refine ⟨r, j, hr, hj, congrArg (Prod.mk _) ?_⟩
      rw [hsum]
      decide
    · rintro ⟨r, j, hr, hj, rfl⟩
      refine ⟨r, j, hr, hj, congrArg (Prod.mk _) ?_⟩
      rw [hsum]
      decide

/-- **C63**, finding F12: with 2048 threads the size of the scratch memory overflows `int`. -/
theorem C63_scratch_fails (hw : Int) : gemmScratch hw 2048 = .error .overflow := by
  rfl

end Meta
end Gemmlowp
