import Verif.PropsMetaGemm

/-!
# C58 for the legacy drivers

`gemm_*_strided`, `gemv_*` and the multi-threaded entry points `multi_thread_gemm_*` that the fast path of
`EightBitIntGemm` calls.
-/

namespace Gemmlowp
namespace Meta

/-- The stream of the left operand, meta/legacy_single_thread_gemm.h:52-56. -/
def legacyLeft (k : Nat) (multiplicative additive : Int) : StreamParams :=
  ⟨.rowMajorWithSum, k, k, multiplicative, additive⟩

/-- What the generated code of an operation has to do for depth `k`: for both orders of the operands and each
of the tiles in use, pack lanes of `k` bytes that can be read (`read`), and give the entries
`V lhsOffset rhsOffset l r`.  The value does not change if the operands are exchanged. -/
structure LegacyOp.Meets {σ β : Type} (o : LegacyOp σ β) (V : Int → Int → Nat → Nat → β) (k : Nat)
    (read : Nat → Prop) (base cap : Nat) : Prop where
  code : ∀ lo ro stride km kn, (km, kn) = (2, 4) ∨ (km, kn) = (1, 8) ∨ (km, kn) = (1, 6) →
    ∃ c : Contract σ β, c.val = V lo ro ∧ (∀ a, read a → c.readL a ∧ c.readR a) ∧
      (o.ops (legacyLeft k ro (o.sumOffset + k * lo * ro)) (legacyLeft k lo 0) ⟨.rowMajor, 0, stride, 0, 0⟩).Meets c
        (legacyLeft k ro (o.sumOffset + k * lo * ro)) (legacyLeft k lo 0) ⟨.rowMajor, 0, stride, 0, 0⟩ o.outSize
        ⟨km, kn, 8, 0, 0, k % 8⟩ base cap
  swap : ∀ lo ro l r, V lo ro l r = V ro lo r l
  tile : ∀ k, o.gemvTile k = (2, 4) ∨ o.gemvTile k = (1, 8) ∨ o.gemvTile k = (1, 6)

/-- The sums of offsets fit in an `int`. -/
def OffsetsFit (sumOffset : Int) (k : Nat) (lo ro : Int) : Prop :=
  InI32 (k * lo) ∧ InI32 (k * ro) ∧ InI32 (k * lo * ro) ∧ InI32 (sumOffset + k * lo * ro)

theorem OffsetsFit.swap {z : Int} {k : Nat} {lo ro : Int} (h : OffsetsFit z k lo ro) : OffsetsFit z k ro lo := by
  obtain ⟨h1, h2, h3, h4⟩ := h
  have e : (k : Int) * ro * lo = k * lo * ro := by ring
  exact ⟨h2, h1, by rw [e]; exact h3, by rw [e]; exact h4⟩

theorem legacyParams_ok {σ β : Type} {o : LegacyOp σ β} {k : Nat} {lo ro : Int}
    (hf : OffsetsFit o.sumOffset k lo ro) (hc : o.constants = .ok ()) (scratch lhs rhs m n result outStride : Nat) :
    legacyParams o scratch lhs rhs m n k lo ro result outStride = .ok
      { m := m, n := n, k := k, lhs := lhs, rhs := rhs, result := result, scratch := scratch
        left := legacyLeft k ro (o.sumOffset + k * lo * ro), right := legacyLeft k lo 0
        out := ⟨.rowMajor, 0, outStride, 0, 0⟩, outSize := o.outSize } := by
  obtain ⟨h1, h2, h3, h4⟩ := hf
  unfold legacyParams
  rw [cint_ok h1, ok_bind, cint_ok h3, ok_bind, cint_ok h4, ok_bind, hc, ok_bind]
  rfl

/-! ## Scratch memory -/

theorem alignTo_lt {a : Nat} (ha : 0 < a) (v : Nat) : alignTo a v < v + a := by
  unfold alignTo
  have := Nat.div_mul_le_self (v + a - 1) a
  omega

/-- One strip of four lanes. -/
theorem packed_four (k : Nat) (x y : Int) : (legacyLeft k x y).packedStride 1 4 8 = 32 + 4 * alignTo 8 k := by
  unfold legacyLeft StreamParams.packedStride
  obtain ⟨q, hq⟩ := alignTo_dvd 8 k
  simp only
  rw [hq]
  unfold alignTo
  omega

theorem packed_lanes (k : Nat) (x y : Int) (lanes : Nat) :
    (legacyLeft k x y).packedStride 1 lanes 8 ≤ 63 + lanes * (k + 7) := by
  unfold legacyLeft StreamParams.packedStride
  simp only
  have h1 := alignTo_lt (a := 32) (by omega) (1 * lanes * alignTo 8 k)
  have h2 := alignTo_lt (a := 8) (by omega) k
  have h3 := Nat.mul_le_mul_left lanes (show alignTo 8 k ≤ k + 7 by omega)
  rw [Nat.one_mul] at h1
  rw [Nat.one_mul]
  omega

/-- What `gemm_*_strided` needs for a chunk of the width that `CacheFriendlyMatrixMatrix` makes, against
`ScratchPerThread` (meta/legacy_multi_thread_gemm.h:67): 1 MB is enough from depth 12 up to depth 2048, and
from depth 8 up if the panel is not cut. -/
theorem chunk_scratch {n w k : Nat} {x y x' y' : Int} (hk : 8 ≤ k) (hk' : k ≤ 2048)
    (h : (n * k ≤ 262144 ∧ w = n) ∨ (12 ≤ k ∧ w < 2 * optimalWidth k)) :
    neededScratch (legacyLeft k x y) (legacyLeft k x' y') w 2 4 8 ≤ 1048576 := by
  have h2 := packed_lanes k x y 2
  rcases h with ⟨h, rfl⟩ | ⟨h12, h⟩
  · have h1 := needed_le (one := legacyLeft k x y) (whole := legacyLeft k x' y') (dim := w) (oneLanes := 2)
      (wholeLanes := 4) (pack := 8) (by omega)
    rw [packed_four] at h1
    have h8 := alignTo_lt (a := 8) (by omega) k
    obtain ⟨c, hc⟩ : ∃ c, c = (w + 4 - 1) / 4 := ⟨_, rfl⟩
    rw [← hc] at h1
    have hcw : 4 * c ≤ w + 3 := by omega
    have h3 : c * (32 + 4 * alignTo 8 k) ≤ c * (4 * k + 60) := Nat.mul_le_mul_left _ (by omega)
    have h4 : c * (4 * k + 60) = 4 * c * k + 60 * c := by ring
    have h5 : 4 * c * k ≤ (w + 3) * k := Nat.mul_le_mul_right _ hcw
    rw [Nat.add_mul] at h5
    have h6 : w * 8 ≤ w * k := Nat.mul_le_mul_left _ hk
    omega
  · obtain ⟨q, hq⟩ : ∃ q, q = 65536 / k := ⟨_, rfl⟩
    have hqk : q * k ≤ 65536 := by rw [hq]; exact Nat.div_mul_le_self _ _
    have hq32 : 32 ≤ q := by rw [hq]; exact (Nat.le_div_iff_mul_le (by omega)).2 (by omega)
    have hopt : optimalWidth k = 4 * q := by
      unfold optimalWidth
      rw [show 262144 / (4 * k) = q by
        rw [hq, show (262144 : Nat) = 4 * 65536 by rfl, Nat.mul_div_mul_left _ _ (by omega)]]
      omega
    rw [hopt] at h
    unfold neededScratch
    rw [packed_four]
    have hl : (if w % 4 = 0 then 0 else (legacyLeft k x' y').packedStride 1 (w % 4) 8) ≤ 32 + 4 * alignTo 8 k := by
      split
      · omega
      · rw [← packed_four k x' y']
        exact packedStride_mono _ _ _ (by omega)
    have hc : w / 4 ≤ 2 * q - 1 := by omega
    by_cases h16 : k ≤ 16
    · have hq5 : q ≤ 5461 := by
        have : q * 12 ≤ q * k := Nat.mul_le_mul_left _ h12
        omega
      have h8 : alignTo 8 k = 16 := by unfold alignTo; omega
      have hp2 : (legacyLeft k x y).packedStride 1 2 8 = 64 := by
        unfold legacyLeft StreamParams.packedStride
        simp only
        rw [h8]; rfl
      rw [h8] at hl ⊢
      rw [hp2]
      omega
    · have hq3 : q ≤ 3855 := by
        have : q * 17 ≤ q * k := Nat.mul_le_mul_left _ (by omega)
        omega
      have h8 := alignTo_lt (a := 8) (by omega) k
      have h3 : w / 4 * (32 + 4 * alignTo 8 k) ≤ (2 * q - 1) * (32 + 4 * alignTo 8 k) := Nat.mul_le_mul_right _ hc
      have h4 : (2 * q - 1) * (32 + 4 * alignTo 8 k) + (32 + 4 * alignTo 8 k) = 2 * q * (32 + 4 * alignTo 8 k) := by
        obtain ⟨r, hr⟩ : ∃ r, 2 * q = r + 1 := ⟨2 * q - 1, by omega⟩
        rw [hr, Nat.add_sub_cancel, Nat.add_mul r 1, Nat.one_mul]
      have h5 : 2 * q * (32 + 4 * alignTo 8 k) ≤ 2 * q * (4 * k + 60) := Nat.mul_le_mul_left _ (by omega)
      have h6 : 2 * q * (4 * k + 60) = 8 * (q * k) + 120 * q := by ring
      omega

/-- What `gemv_*` needs, against `ScratchPerThread` (meta/legacy_multi_thread_gemv.h:31): 128 kB. -/
theorem gemv_scratch {k km kn : Nat} {x y x' y' : Int} (hk' : k ≤ 2048)
    (ht : (km, kn) = (2, 4) ∨ (km, kn) = (1, 8) ∨ (km, kn) = (1, 6)) :
    neededScratch (legacyLeft k x y) (legacyLeft k x' y') 1 kn km 8 ≤ 131072 := by
  have h1 : kn ≤ 8 ∧ km ≤ 2 ∧ 0 < km := by
    rcases ht with h | h | h <;> cases h <;> exact ⟨by omega, by omega, by omega⟩
  have h2 := packed_lanes k x y kn
  have h3 := packed_lanes k x' y' km
  have h4 := needed_le (one := legacyLeft k x y) (whole := legacyLeft k x' y') (dim := 1) (oneLanes := kn)
    (wholeLanes := km) (pack := 8) h1.2.2
  have h5 : (1 + km - 1) / km = 1 := by
    rw [Nat.add_sub_cancel_left]; exact Nat.div_self h1.2.2
  rw [h5, Nat.one_mul] at h4
  have h6 := Nat.mul_le_mul h1.1 (show k + 7 ≤ 2055 by omega)
  have h7 := Nat.mul_le_mul h1.2.1 (show k + 7 ≤ 2055 by omega)
  omega

/-! ## The drivers -/

section
variable {σ β : Type} {o : LegacyOp σ β} {V : Int → Int → Nat → Nat → β} {k base cap : Nat} {read : Nat → Prop}
variable {lo ro : Int}

theorem legacyGemm_spec (hm : o.Meets V k read base cap) (hf : OffsetsFit o.sumOffset k lo ro)
    (hc : o.constants = .ok ()) {scratch lhs rhs m n result stride : Nat}
    (hL : ∀ i, i < m → read (lhs + i * k)) (hR : ∀ i, i < n → read (rhs + i * k))
    (hb : ∃ q, scratch = base + 32 * q)
    (hcap : ∀ x y x' y', scratch + neededScratch (legacyLeft k x y) (legacyLeft k x' y') n 2 4 8 ≤ cap) (s : σ) :
    ∃ s' l, legacyGemm o scratch lhs rhs m n k lo ro result stride s = .ok (s', l) ∧
      ∀ x, x ∈ l ↔ Entry (V lo ro) result (stride * o.outSize) o.outSize lhs rhs k k m n x := by
  obtain ⟨c, hv, hr, hcode⟩ := hm.code lo ro (stride * o.outSize) 2 4 (.inl rfl)
  unfold legacyGemm
  rw [legacyParams_ok hf hc, ok_bind, C44_dispatch _ (by omega) (by omega) (by omega)]
  rw [← hv]
  exact executePackRHS_spec (t := ⟨2, 4, 8, m % 2, n % 4, k % 8⟩) (c := c) (base := base) (cap := cap)
    (p := { m := m, n := n, k := k, lhs := lhs, rhs := rhs, result := result, scratch := scratch
            left := legacyLeft k ro (o.sumOffset + k * lo * ro), right := legacyLeft k lo 0
            out := ⟨.rowMajor, 0, stride * o.outSize, 0, 0⟩, outSize := o.outSize })
    (hcode.tile rfl rfl rfl rfl) rfl (show 0 < 2 by decide) (show 0 < 4 by decide) rfl rfl (fun i hi => (hr _ (hL i hi)).1)
    (fun i hi => (hr _ (hR i hi)).2) hb (hcap _ _ _ _) s

theorem legacyGemv_spec (hm : o.Meets V k read base cap) (hf : OffsetsFit o.sumOffset k lo ro)
    (hc : o.constants = .ok ()) (hk : k ≤ 2048) {scratch lhs rhs n result : Nat} (rowStep : Nat)
    (hL : read lhs) (hR : ∀ i, i < n → read (rhs + i * k))
    (hb : ∃ q, scratch = base + 32 * q) (hcap : scratch + 131072 ≤ cap) (s : σ) :
    ∃ s' l, legacyGemv o scratch lhs rhs n k lo ro result s = .ok (s', l) ∧
      ∀ x, x ∈ l ↔ Entry (V lo ro) result rowStep o.outSize lhs rhs k k 1 n x := by
  obtain ⟨km, hkm⟩ : ∃ km, km = (o.gemvTile k).1 := ⟨_, rfl⟩
  obtain ⟨kn, hkn⟩ : ∃ kn, kn = (o.gemvTile k).2 := ⟨_, rfl⟩
  have ht : (km, kn) = (2, 4) ∨ (km, kn) = (1, 8) ∨ (km, kn) = (1, 6) := by
    rw [hkm, hkn]; exact hm.tile k
  have hpos : 0 < km ∧ 0 < kn := by
    rcases ht with h | h | h <;> cases h <;> exact ⟨by omega, by omega⟩
  obtain ⟨c, hv, hr, hcode⟩ := hm.code lo ro 0 km kn ht
  unfold legacyGemv
  rw [legacyParams_ok hf hc, ok_bind, ← hkm, ← hkn, C44_dispatch _ hpos.1 hpos.2 (by omega)]
  obtain ⟨s', l, e, hl⟩ := executePackLHS_spec (t := ⟨km, kn, 8, 1 % km, n % kn, k % 8⟩) (c := c) (base := base)
    (cap := cap)
    (p := { m := 1, n := n, k := k, lhs := lhs, rhs := rhs, result := result, scratch := scratch
            left := legacyLeft k ro (o.sumOffset + k * lo * ro), right := legacyLeft k lo 0
            out := ⟨.rowMajor, 0, 0, 0, 0⟩, outSize := o.outSize })
    (hcode.tile rfl rfl rfl rfl) rfl hpos.1 hpos.2 rfl rfl
    (fun i hi => (hr _ (by rw [show i = 0 from Nat.lt_one_iff.1 hi, Nat.zero_mul]; exact hL)).1)
    (fun i hi => (hr _ (hR i hi)).2) hb
    (Nat.le_trans (Nat.add_le_add_left (gemv_scratch hk ht) _) hcap) s
  refine ⟨s', l, e, fun x => ?_⟩
  rw [hl, hv]
  constructor
  · rintro ⟨a, b, ha, hb, rfl⟩
    obtain rfl : a = 0 := Nat.lt_one_iff.1 ha
    exact ⟨0, b, by omega, hb, by simp [legacyLeft, StreamParams.laneStep]⟩
  · rintro ⟨a, b, ha, hb, rfl⟩
    obtain rfl : a = 0 := Nat.lt_one_iff.1 ha
    exact ⟨0, b, by show 0 < 1; omega, hb, by simp [legacyLeft, StreamParams.laneStep]⟩

theorem foldlM_trace {α : Type} {f : σ → α → M (σ × List (Nat × β))} {F : α → Nat × β → Prop} :
    ∀ (l : List α), (∀ c ∈ l, ∀ s, ∃ s' t, f s c = .ok (s', t) ∧ ∀ x, x ∈ t ↔ F c x) →
    ∀ s acc, ∃ s' T, l.foldlM (fun (st : σ × List (Nat × β)) c => f st.1 c >>= fun r =>
        (pure (r.1, st.2 ++ r.2) : M (σ × List (Nat × β)))) (s, acc) = .ok (s', acc ++ T) ∧
      ∀ x, x ∈ T ↔ ∃ c ∈ l, F c x := by
  intro l
  induction l with
  | nil => intro _ s acc; exact ⟨s, [], by simp; rfl, by simp⟩
  | cons c l ih =>
    intro h s acc
    obtain ⟨s1, t1, e1, h1⟩ := h c List.mem_cons_self s
    obtain ⟨s2, t2, e2, h2⟩ := ih (fun q hq => h q (List.mem_cons_of_mem _ hq)) s1 (acc ++ t1)
    refine ⟨s2, t1 ++ t2, ?_, ?_⟩
    · rw [List.foldlM_cons, e1, ok_bind]
      show List.foldlM _ (s1, acc ++ t1) l = _
      rw [e2, List.append_assoc]
    · intro x; rw [List.mem_append, h1, h2]; simp

/-- The conditions on sizes: the depth, and the product of the sizes. -/
def SizesOk (n k : Nat) : Prop := k ≤ 2048 ∧ (12 ≤ k ∨ (8 ≤ k ∧ n * k ≤ 262144))

theorem SizesOk.mono {n n' k : Nat} (h : SizesOk n k) (hn : n' ≤ n) : SizesOk n' k :=
  ⟨h.1, h.2.imp id fun h => ⟨h.1, Nat.le_trans (Nat.mul_le_mul_right _ hn) h.2⟩⟩

theorem cacheFriendlyMM_spec (hm : o.Meets V k read base cap) (hf : OffsetsFit o.sumOffset k lo ro)
    (hc : o.constants = .ok ()) {scratch lhs rhs m n result stride : Nat} (hpm : 0 < m) (hpn : 0 < n)
    (hk : SizesOk n k) (hnk : n * k ≤ 2147483647)
    (hL : ∀ i, i < m → read (lhs + i * k)) (hR : ∀ i, i < n → read (rhs + i * k))
    (hb : ∃ q, scratch = base + 32 * q) (hcap : scratch + 1048576 ≤ cap) (s : σ) :
    ∃ s' l, cacheFriendlyMM o lo ro scratch lhs rhs m n k result stride s = .ok (s', l) ∧
      ∀ x, x ∈ l ↔ Entry (V lo ro) result (stride * o.outSize) o.outSize lhs rhs k k m n x := by
  have hk8 : 8 ≤ k := by rcases hk.2 with h | h <;> omega
  have hk1 := hk.1
  obtain ⟨ch, e, hp, h1, h2⟩ := C47_chunks hpn (by omega) hnk (by omega)
  obtain ⟨s', T, eT, hT⟩ := foldlM_trace (σ := σ) (f := fun s c => legacyGemm o scratch lhs (rhs + c.1 * k) m c.2 k lo ro
      (result + c.1 * o.outSize) stride s)
    (F := fun c x => Entry (V lo ro) (result + c.1 * o.outSize) (stride * o.outSize) o.outSize lhs (rhs + c.1 * k) k k
      m c.2 x) ch (by
      intro w hw s
      have hin := hp.within w hw
      refine legacyGemm_spec hm hf hc hL ?_ hb ?_ s
      · intro i hi
        rw [Nat.add_assoc, ← Nat.add_mul]
        exact hR _ (by omega)
      · intro x y x' y'
        refine Nat.le_trans (Nat.add_le_add_left (chunk_scratch (n := n) hk8 hk1 ?_) _) hcap
        by_cases hbig : n * k > 262144
        · right
          refine ⟨?_, (h2 hbig).1 w hw⟩
          rcases hk.2 with h | h <;> omega
        · left
          rw [h1 (by omega)] at hw
          simp at hw
          exact ⟨by omega, by rw [hw]⟩) s []
  refine ⟨s', T, ?_, fun x => ?_⟩
  · unfold cacheFriendlyMM
    rw [e, ok_bind]
    exact eT
  · rw [hT, entry_pieces_cols hp hpm]

/-- The tasks of `MultiThreadedMatrixMatrix`. -/
theorem multiThreadedMM_spec {val : Nat → Nat → β} {outSize per : Nat}
    {run : (scratch lhs rhs m n k result resultStride : Nat) → σ → M (σ × List (Nat × β))} {hw maxThreads : Int}
    {scratch lhs rhs m n k result stride : Nat} (hpm : 0 < m) (hpn : 0 < n) (hpk : 0 < k)
    (hint : m * n * k ≤ 2147483647) (s : σ)
    (hrun : ∀ i mo no m' n' : Nat, (i : Int) < max 1 (resolveMaxThreads hw maxThreads) → mo + m' ≤ m → no + n' ≤ n →
      0 < m' → 0 < n' →
      ∃ s' l, run (scratch + i * per) (lhs + mo * k) (rhs + no * k) m' n' k
          (result + (mo * stride + no) * outSize) stride s = .ok (s', l) ∧
        ∀ x, x ∈ l ↔ Entry val (result + (mo * stride + no) * outSize) (stride * outSize) outSize
          (lhs + mo * k) (rhs + no * k) k k m' n' x) :
    ∃ ls, multiThreadedMM outSize run per hw maxThreads scratch lhs rhs m n k result stride s = .ok ls ∧
      ∀ x, x ∈ ls.flatten ↔ Entry val result (stride * outSize) outSize lhs rhs k k m n x := by
  obtain ⟨rs, e, hpart, hlen, hcount⟩ := C45_tasks_partial (maxTasks := resolveMaxThreads hw maxThreads) hpm hpn hpk hint
  unfold multiThreadedMM
  rw [e, ok_bind]
  by_cases h1 : rs.length = 1
  · rw [if_pos h1]
    obtain ⟨s', l, er, hl⟩ := hrun 0 0 0 m n (by omega) (by omega) (by omega) hpm hpn
    simp only [Nat.zero_mul, Nat.add_zero] at er hl
    exact ⟨[l], by rw [er, ok_bind]; rfl, by intro x; simpa using hl x⟩
  · rw [if_neg h1]
    have hz : ∀ (r : TaskRect) (i : Nat), (r, i) ∈ rs.zipIdx → rs[i]? = some r := by
      intro r i h
      have := List.mem_zipIdx_iff_getElem?.1 h
      simpa using this
    obtain ⟨ls, els, -, hb1, hb2, -⟩ := mapM_ok
      (f := fun (x : TaskRect × Nat) => (run (scratch + x.2 * per) (lhs + x.1.mOffset * k) (rhs + x.1.nOffset * k) x.1.m
        x.1.n k (result + (x.1.mOffset * stride + x.1.nOffset) * outSize) stride s) >>= fun t =>
          (pure t.2 : M (List (Nat × β))))
      (P := fun r l => ∀ x, x ∈ l ↔ Entry val (result + r.1.mOffset * (stride * outSize) + r.1.nOffset * outSize)
        (stride * outSize) outSize (lhs + r.1.mOffset * k) (rhs + r.1.nOffset * k) k k r.1.m r.1.n x) rs.zipIdx (by
        rintro ⟨r, i⟩ hr
        have hi := hz r i hr
        have hmem := List.mem_of_getElem? hi
        have hin := hpart.within r hmem
        have hne := hpart.nonempty r hmem
        have hlt := (List.getElem?_eq_some_iff.1 hi).1
        obtain ⟨s', l, er, hl⟩ := hrun i r.mOffset r.nOffset r.m r.n (by omega) hin.1 hin.2 hne.1 hne.2
        refine ⟨l, by simp only; rw [er, ok_bind]; rfl, fun x => ?_⟩
        rw [hl, show (r.mOffset * stride + r.nOffset) * outSize = r.mOffset * (stride * outSize) + r.nOffset * outSize by
          ring, ← Nat.add_assoc])
    refine ⟨ls, els, fun x => ?_⟩
    rw [← entry_rects hpart, List.mem_flatten]
    constructor
    · rintro ⟨l, hl, hx⟩
      obtain ⟨⟨r, i⟩, hr, hP⟩ := hb1 l hl
      exact ⟨r, List.mem_of_getElem? (hz r i hr), (hP x).1 hx⟩
    · rintro ⟨r, hr, hx⟩
      obtain ⟨i, hi⟩ := List.mem_iff_getElem?.1 hr
      obtain ⟨l, hl, hP⟩ := hb2 (r, i) (List.mem_zipIdx_iff_getElem?.2 (by simpa using hi))
      exact ⟨l, hl, (hP x).2 hx⟩

theorem resolve_idem (hw mt : Int) : resolveMaxThreads hw (resolveMaxThreads hw mt) = resolveMaxThreads hw mt := by
  unfold resolveMaxThreads
  by_cases h : mt = 0
  · rw [if_pos h]; split <;> simp_all
  · rw [if_neg h, if_neg h]

theorem multiThreadGemv_spec (hm : o.Meets V k read base cap) (hf : OffsetsFit o.sumOffset k lo ro)
    (hc : o.constants = .ok ()) {hw maxThreads : Int} {scratch lhs rhs n result : Nat} (rowStep : Nat) (hpn : 0 < n)
    (hpk : 0 < k) (hk : k ≤ 2048) (hint : n * k ≤ 2147483647)
    (hL : read lhs) (hR : ∀ i, i < n → read (rhs + i * k))
    (hb : ∃ q, scratch = base + 32 * q)
    (hcap : (scratch : Int) + max 1 (resolveMaxThreads hw maxThreads) * 131072 ≤ cap) (s : σ) :
    ∃ ls, multiThreadGemv o hw maxThreads scratch lhs rhs n k lo ro result s = .ok ls ∧
      ∀ x, x ∈ ls.flatten ↔ Entry (V lo ro) result rowStep o.outSize lhs rhs k k 1 n x := by
  unfold multiThreadGemv
  by_cases h1 : resolveMaxThreads hw maxThreads = 1
  · rw [if_pos h1]
    obtain ⟨s', l, e, hl⟩ := legacyGemv_spec hm hf hc hk (result := result) rowStep hL hR hb (by omega) s
    exact ⟨[l], by rw [e, ok_bind]; rfl, by intro x; simpa using hl x⟩
  · rw [if_neg h1]
    obtain ⟨ls, e, hls⟩ := multiThreadedMM_spec (val := V lo ro) (outSize := o.outSize) (per := 128 * 1024)
      (run := fun scratch lhs rhs _ n k result _ s => legacyGemv o scratch lhs rhs n k lo ro result s)
      (hw := hw) (maxThreads := resolveMaxThreads hw maxThreads) (scratch := scratch) (lhs := lhs) (rhs := rhs)
      (m := 1) (n := n) (k := k) (result := result) (stride := n) (by omega) hpn hpk (by rw [Nat.one_mul]; exact hint) s (by
        intro i mo no m' n' hi hmo hno hm' hn'
        rw [resolve_idem] at hi
        obtain rfl : mo = 0 := by omega
        obtain rfl : m' = 1 := by omega
        refine legacyGemv_spec hm hf hc hk _ (by simpa using hL) ?_ ?_ ?_ s
        · intro i hi
          rw [Nat.add_assoc, ← Nat.add_mul]
          exact hR _ (by omega)
        · obtain ⟨q, hq⟩ := hb
          exact ⟨q + i * 4096, by rw [hq]; omega⟩
        · omega)
    refine ⟨ls, e, fun x => ?_⟩
    rw [hls]
    constructor
    · rintro ⟨a, b, ha, hb, rfl⟩
      obtain rfl : a = 0 := Nat.lt_one_iff.1 ha
      exact ⟨0, b, by omega, hb, by simp⟩
    · rintro ⟨a, b, ha, hb, rfl⟩
      obtain rfl : a = 0 := Nat.lt_one_iff.1 ha
      exact ⟨0, b, by omega, hb, by simp⟩

/-- **C58** for the entry points `multi_thread_gemm_q8`, `multi_thread_gemm_i32` and `multi_thread_gemm_f`: in
scratch memory of the size that `gemm_*_scratch` gives, for a depth from 12 to 2048 (from 8, if the right
operand has at most 256 kB), and if the number of multiplications and the sums of the offsets fit in an `int`,
the stores of all tasks together are the entries of the result; its rows follow each other. -/
theorem C58_legacy (hm : o.Meets V k read base cap) (hf : OffsetsFit o.sumOffset k lo ro)
    (hc : o.constants = .ok ()) {hw maxThreads : Int} {scratch lhs rhs m n result : Nat} (hpm : 0 < m) (hpn : 0 < n)
    (hk : SizesOk n k) (hint : m * n * k ≤ 2147483647)
    (hL : ∀ i, i < m → read (lhs + i * k)) (hR : ∀ i, i < n → read (rhs + i * k))
    (hb : ∃ q, scratch = base + 32 * q)
    (hcap : (scratch : Int) + max 1 (resolveMaxThreads hw maxThreads) * 1048576 ≤ cap) (s : σ) :
    ∃ ls, multiThreadGemm o hw maxThreads scratch lhs rhs m n k lo ro result s = .ok ls ∧
      ∀ x, x ∈ ls.flatten ↔ Entry (V lo ro) result (n * o.outSize) o.outSize lhs rhs k k m n x := by
  have hpk : 0 < k := by rcases hk.2 with h | h <;> omega
  have hnk : n * k ≤ 2147483647 := by
    refine Nat.le_trans ?_ hint
    rw [Nat.mul_assoc]; exact Nat.le_mul_of_pos_left _ hpm
  unfold multiThreadGemm
  by_cases hm1 : m = 1
  · subst hm1
    rw [if_pos rfl]
    exact multiThreadGemv_spec hm hf hc _ hpn hpk hk.1 hnk (by simpa using hL 0 (by omega)) hR hb (by omega) s
  rw [if_neg hm1]
  by_cases hn1 : n = 1
  · subst hn1
    rw [if_pos rfl]
    obtain ⟨ls, e, hls⟩ := multiThreadGemv_spec (hw := hw) (maxThreads := maxThreads) (result := result) hm hf.swap hc 0 hpm
      hpk hk.1 (by rwa [Nat.mul_one] at hint) (by simpa using hR 0 (by omega)) hL hb (by omega) s
    refine ⟨ls, e, fun x => ?_⟩
    rw [hls]
    constructor
    · rintro ⟨a, b, ha, hb, rfl⟩
      obtain rfl : a = 0 := Nat.lt_one_iff.1 ha
      exact ⟨b, 0, hb, by omega, by rw [hm.swap]; simp⟩
    · rintro ⟨a, b, ha, hb, rfl⟩
      obtain rfl : b = 0 := Nat.lt_one_iff.1 hb
      exact ⟨0, a, by omega, ha, by rw [hm.swap]; simp⟩
  rw [if_neg hn1]
  by_cases h1 : resolveMaxThreads hw maxThreads = 1
  · rw [if_pos h1]
    obtain ⟨s', l, e, hl⟩ := cacheFriendlyMM_spec hm hf hc (result := result) (stride := n) hpm hpn hk hnk hL hR hb
      (by omega) s
    exact ⟨[l], by rw [e, ok_bind]; rfl, by intro x; simpa using hl x⟩
  · rw [if_neg h1]
    refine multiThreadedMM_spec (per := 4 * kMaxCacheFriendlySize) hpm hpn hpk hint s ?_
    intro i mo no m' n' hi hmo hno hm' hn'
    rw [resolve_idem] at hi
    refine cacheFriendlyMM_spec hm hf hc hm' hn' (hk.mono (by omega))
      (Nat.le_trans (Nat.mul_le_mul_right _ (by omega)) hnk) ?_ ?_ ?_ ?_ s
    · intro i hi
      rw [Nat.add_assoc, ← Nat.add_mul]
      exact hL _ (by omega)
    · intro i hi
      rw [Nat.add_assoc, ← Nat.add_mul]
      exact hR _ (by omega)
    · obtain ⟨q, hq⟩ := hb
      exact ⟨q + i * 32768, by rw [hq]; unfold kMaxCacheFriendlySize; omega⟩
    · unfold kMaxCacheFriendlySize; omega

end

/-! ## Generated code that meets the conditions

Scratch memory as a table of packed panels; a panel that is overwritten in part is gone. -/

/-- A packed panel: whether it is of the left operand, its lanes, and where they are. -/
structure Panel where
  left : Bool
  lanes : Nat
  src : Nat

def panelSize (l r : StreamParams) (p : Panel) : Nat :=
  (if p.left then l else r).packedStride 1 p.lanes 8

/-- Write a panel; what it overlaps is gone. -/
def putPanel (l r : StreamParams) (p : Panel) (dst : Nat) (s : Nat → Option Panel) : Nat → Option Panel := fun a =>
  if a = dst then some p
  else match s a with
    | none => none
    | some q => if dst + panelSize l r p ≤ a ∨ a + panelSize l r q ≤ dst then some q else none

theorem putPanel_apart {l r : StreamParams} {p q : Panel} {dst a : Nat} {s : Nat → Option Panel}
    (hp : 0 < panelSize l r p) (hq : 0 < panelSize l r q)
    (h : Apart dst (panelSize l r p) a (panelSize l r q)) (hs : s a = some q) : putPanel l r p dst s a = some q := by
  unfold Apart at h
  unfold putPanel
  rw [if_neg (by omega), hs]
  exact if_pos h

/-- Reference operations: the entries are those of the product of the lanes with the offsets added. -/
def referenceOps (mem : Nat → Int) (k : Nat) (lo ro : Int) (l r out : StreamParams) (outSize : Nat) :
    MetaOps (Nat → Option Panel) Int where
  packLeft lanes _ src dst s := .ok (putPanel l r ⟨true, lanes, src⟩ dst s)
  packRight lanes _ src dst s := .ok (putPanel l r ⟨false, lanes, src⟩ dst s)
  mul mm nn pl pr res s :=
    match s pl, s pr with
    | some p, some q => .ok ((List.range mm).flatMap fun a => (List.range nn).map fun b =>
        (res + a * out.stride + b * outSize,
          sumTo k fun i => (mem (p.src + a * l.laneStep + i) + lo) * (mem (q.src + b * r.laneStep + i) + ro)))
    | _, _ => .error .oob

def referenceLegacy (mem : Nat → Int) (k : Nat) : LegacyOp (Nat → Option Panel) Int where
  outSize := 4
  ops l r out := referenceOps mem k r.multiplicativeSumOffset l.multiplicativeSumOffset l r out 4
  sumOffset := 0
  constants := .ok ()
  gemvTile := i32GemvTile

theorem referenceLegacy_meets (mem : Nat → Int) (k base cap : Nat) :
    (referenceLegacy mem k).Meets
      (fun lo ro l r => sumTo k fun i => (mem (l + i) + lo) * (mem (r + i) + ro)) k (fun _ => True) base cap where
  code := by
    intro lo ro stride km kn _
    refine ⟨⟨fun s a n src => s a = some ⟨true, n, src⟩, fun s a n src => s a = some ⟨false, n, src⟩,
      fun _ => True, fun _ => True, _⟩, rfl, fun _ _ => ⟨trivial, trivial⟩, ?_, ?_, ?_⟩
    · intro lanes src dst s _ _ _ _ _
      have hpos : ∀ n z x, 0 < panelSize (legacyLeft k ro ((referenceLegacy mem k).sumOffset + k * lo * ro))
          (legacyLeft k lo 0) ⟨z, n, x⟩ := by
        intro n z x; unfold panelSize; cases z <;> simp [legacyLeft, StreamParams.packedStride]
      refine ⟨_, rfl, if_pos rfl, ?_, ?_⟩
      · intro a n x h hs; exact putPanel_apart (hpos _ _ _) (hpos _ _ _) h hs
      · intro a n x h hs; exact putPanel_apart (hpos _ _ _) (hpos _ _ _) h hs
    · intro lanes src dst s _ _ _ _ _
      have hpos : ∀ n z x, 0 < panelSize (legacyLeft k ro ((referenceLegacy mem k).sumOffset + k * lo * ro))
          (legacyLeft k lo 0) ⟨z, n, x⟩ := by
        intro n z x; unfold panelSize; cases z <;> simp [legacyLeft, StreamParams.packedStride]
      refine ⟨_, rfl, if_pos rfl, ?_, ?_⟩
      · intro a n x h hs; exact putPanel_apart (hpos _ _ _) (hpos _ _ _) h hs
      · intro a n x h hs; exact putPanel_apart (hpos _ _ _) (hpos _ _ _) h hs
    · intro mm nn pl pr res ls rs s _ _ _ _ hL hR
      have hL' : s pl = some ⟨true, mm, ls⟩ := hL
      have hR' : s pr = some ⟨false, nn, rs⟩ := hR
      refine ⟨_, by simp only [referenceLegacy, referenceOps, hL', hR']; rfl, ?_⟩
      intro x
      simp only [List.mem_flatMap, List.mem_map, List.mem_range, Entry]
      constructor
      · rintro ⟨a, ha, b, hb, rfl⟩; exact ⟨a, b, ha, hb, rfl⟩
      · rintro ⟨a, b, ha, hb, rfl⟩; exact ⟨a, ha, b, hb, rfl⟩
  swap := by
    intro lo ro l r
    congr 1
    funext i
    exact Int.mul_comm _ _
  tile := by
    intro k
    show i32GemvTile k = _ ∨ i32GemvTile k = _ ∨ i32GemvTile k = _
    unfold i32GemvTile
    split <;> simp

/-- `C58_legacy` for these operations and a product that is cut both among threads and into chunks: 500 rows,
2000 columns, depth 1000, offsets -128, four threads. -/
example (mem : Nat → Int) (s : Nat → Option Panel) :
    ∃ ls, multiThreadGemm (referenceLegacy mem 1000) 8 4 0 0 500000 500 2000 1000 (-128) (-128) 0 s = .ok ls ∧
      ∀ x, x ∈ ls.flatten ↔ ∃ a b, a < 500 ∧ b < 2000 ∧ x = (0 + a * 8000 + b * 4,
        sumTo 1000 fun i => (mem (0 + a * 1000 + i) + -128) * (mem (500000 + b * 1000 + i) + -128)) :=
  C58_legacy (referenceLegacy_meets mem 1000 0 4194304) (show OffsetsFit 0 1000 (-128) (-128) by unfold OffsetsFit; decide) rfl (by omega) (by omega)
    ⟨by omega, .inl (by omega)⟩ (by omega) (fun _ _ => trivial) (fun _ _ => trivial) ⟨0, rfl⟩ (by decide) s

/-! ## Where they fail -/

/-- **C58**, finding F28: for depth 9 the optimal width of a chunk is 29124, so that 58247 columns are one
chunk.  Packed, it takes 1398016 bytes, but each thread has 1048576 bytes of scratch memory. -/
theorem C58_scratch_fails (x y x' y' : Int) :
    cacheFriendlyChunks 58247 9 = .ok [(0, 58247)] ∧
      neededScratch (legacyLeft 9 x y) (legacyLeft 9 x' y') 58247 2 4 8 = 1398016 ∧ 1398016 > 4 * kMaxCacheFriendlySize :=
  ⟨rfl, by simp [neededScratch, legacyLeft, StreamParams.packedStride, alignTo], by decide⟩

/-- **C58**, finding F28: so it does for depth 8, the smallest that the fast path takes, and 65535 columns. -/
theorem C58_scratch_fails_depth8 (x y x' y' : Int) :
    cacheFriendlyChunks 65535 8 = .ok [(0, 65535)] ∧
      neededScratch (legacyLeft 8 x y) (legacyLeft 8 x' y') 65535 2 4 8 > 4 * kMaxCacheFriendlySize := by
  refine ⟨rfl, ?_⟩
  simp [neededScratch, legacyLeft, StreamParams.packedStride, alignTo, kMaxCacheFriendlySize]

theorem legacyParams_constants {σ β : Type} {o : LegacyOp σ β} {k : Nat} {lo ro : Int}
    (hf : OffsetsFit o.sumOffset k lo ro) {e : Fault} (hc : o.constants = .error e)
    (scratch lhs rhs m n result outStride : Nat) :
    legacyParams o scratch lhs rhs m n k lo ro result outStride = .error e := by
  obtain ⟨h1, h2, h3, h4⟩ := hf
  unfold legacyParams
  rw [cint_ok h1, ok_bind, cint_ok h3, ok_bind, cint_ok h4, ok_bind, hc]
  rfl

/-- **C58**, finding F31: the quantized product with shift 0, which the standard path of `EightBitIntGemm`
computes (`C40`, `C55`), evaluates `1 << -1` in the fast path, whatever the generated code does. -/
theorem C58_shift_zero_fails {σ β : Type} {o : LegacyOp σ β} (hc : o.constants = q8Constants 0) {k : Nat}
    {lo ro : Int} (hf : OffsetsFit o.sumOffset k lo ro) (scratch lhs rhs m n result stride : Nat) (s : σ) :
    legacyGemm o scratch lhs rhs m n k lo ro result stride s = .error .badOp ∧
      legacyGemv o scratch lhs rhs n k lo ro result s = .error .badOp := by
  constructor
  · unfold legacyGemm; rw [legacyParams_constants hf hc]; rfl
  · unfold legacyGemv; rw [legacyParams_constants hf hc]; rfl

end Meta
end Gemmlowp
