import Verif.MetaArmProof
import Verif.PropsMetaLegacy
import Mathlib.Tactic.IntervalCases
/-!
# C62: the generated code of meta/ for 64-bit and 32-bit ARM

The packing code packs, the kernels multiply, and so the drivers of meta/ with this code compute
the product: C58 without assumptions about the generated code.
-/
namespace Gemmlowp
namespace Meta

open MetaAsm (FloatOps X quantize laneSum groups up8 kernSizes)

/-! ## Packing -/

/-- The number that the four bytes at `a` are. -/
def wordAt (s : Int → BitVec 8) (a : Int) : Nat :=
  (s a).toNat + 256 * (s (a + 1)).toNat + 65536 * (s (a + 2)).toNat + 16777216 * (s (a + 3)).toNat

theorem wordAt_eq (s : Int → BitVec 8) (a : Int) : wordAt s a = (MetaAsm.word s a).toNat := by
  unfold wordAt MetaAsm.word
  simp only [BitVec.toNat_append]
  generalize (s (a + 3)).toNat = w
  have h2 := (s (a + 2)).isLt
  have h1 := (s (a + 1)).isLt
  have h0 := (s a).isLt
  generalize (s (a + 2)).toNat = z at *
  generalize (s (a + 1)).toNat = y at *
  generalize (s a).toNat = x at *
  rw [← Nat.shiftLeft_add_eq_or_of_lt (b := x) (by omega), ← Nat.shiftLeft_add_eq_or_of_lt (b := z) (by omega)]
  rw [← Nat.shiftLeft_add_eq_or_of_lt (by rw [Nat.shiftLeft_eq]; omega)]
  simp only [Nat.shiftLeft_eq]
  omega

/-- **C62**, packing: `Stream<.., lanes, 8, count % 8>::Pack` reads the elements of the lanes only and writes them in
groups of eight, lane after lane, the last group filled up with zeros; behind them one word for each lane, the sum
of its elements times the one offset plus the other, modulo 2^32 (for a depth up to 2056); and it writes nothing
outside the region that `PackedStride` gives.  On 32-bit ARM the region must start at a multiple of 8, 16 or 32: as much
of 32 as divides the size of a group of all lanes (necessary: `C66_packing_faults`). -/
theorem C62_packing {e : Env} {p : StreamParams} (hp : p.WithSum) (hk : 0 < p.count) (hk' : p.count ≤ 2056)
    {lanes src dst : Nat} (h0 : 0 < lanes) (h8 : lanes ≤ 8)
    (ha : e.arch = .arm32 → dst % Nat.gcd 32 (8 * lanes) = 0) (hb : e.base ≤ dst) (hc : dst + p.packedStride 1 lanes 8 ≤ e.cap)
    (hr : ∀ i, i < lanes → ∀ q, q < p.count →
      e.readable (src + i * p.laneStep + q * p.elemStep : Nat) = true) (s : Int → BitVec 8) :
    ∃ s', packAsm e p lanes (p.count % 8) src dst s = .ok s' ∧
      (∀ i q, i < lanes → q < (p.count + 7) / 8 * 8 → s' (dst + (q / 8) * (8 * lanes) + 8 * i + q % 8 : Nat) =
        if q < p.count then e.mem (src + i * p.laneStep + q * p.elemStep : Nat) else 0) ∧
      (∀ i, i < lanes → (wordAt s' (dst + lanes * ((p.count + 7) / 8 * 8) + 4 * i : Nat) : Int) =
        (sumTo p.count (fun q => ((e.mem (src + i * p.laneStep + q * p.elemStep : Nat)).toNat : Int)) *
          p.multiplicativeSumOffset + p.additiveSumOffset) % 4294967296) ∧
      ∀ a, a < dst ∨ dst + p.packedStride 1 lanes 8 ≤ a → s' (a : Nat) = s a := by
  obtain ⟨s', e1, h1, h2⟩ := packAsm_spec hp hk h0 h8 ha hb hc hr s
  refine ⟨s', e1, ?_, ?_, ?_⟩
  · intro i q hi hq
    have hlt : q / 8 * (8 * lanes) + 8 * i + q % 8 < lanes * up8 p.count := by
      have h3 : q / 8 + 1 ≤ (p.count + 7) / 8 := by omega
      have h4 := Nat.mul_le_mul_right (8 * lanes) h3
      rw [Nat.add_mul, Nat.one_mul] at h4
      unfold up8
      rw [show lanes * ((p.count + 7) / 8 * 8) = (p.count + 7) / 8 * (8 * lanes) by ring]
      omega
    have h3 := h1.data _ hlt
    rw [Nat.mul_comm (q / 8), MetaAsm.packedByte_at _ hi (by omega), show 8 * (q / 8) + q % 8 = q by omega] at h3
    rw [show ((dst + q / 8 * (8 * lanes) + 8 * i + q % 8 : Nat) : Int) =
      (dst : Int) + (8 * lanes * (q / 8) + 8 * i + q % 8 : Nat) by push_cast; ring, h3]
    rfl
  · intro i hi
    have h3 := h1.sums i hi
    rw [MetaAsm.laneSum_eq hk', ofNat_ofInt, sumTo_cast, ← BitVec.ofInt_mul, ← BitVec.ofInt_add] at h3
    rw [show ((dst + lanes * ((p.count + 7) / 8 * 8) + 4 * i : Nat) : Int) =
      (dst : Int) + (lanes * up8 p.count : Nat) + 4 * (i : Int) by unfold up8; push_cast; ring, wordAt_eq, h3,
      BitVec.toNat_ofInt]
    rw [Int.toNat_of_nonneg (Int.emod_nonneg _ (by decide))]
    rfl
  · intro a ha
    apply h2
    omega

/-- `C62_packing` for three columns of 13 bytes, 20 apart: one full group and one of five, and all of the 96
bytes that `PackedStride` gives. -/
example (ar : Arch) (f : FloatOps) (mem : Int → BitVec 8) (v : Nat → Vec.VReg) (x : X → Int) (s : Int → BitVec 8) :
    ∃ s', packAsm ⟨ar, f, mem, fun _ => true, 32, 160, v, x⟩ ⟨.columnMajorWithSum, 13, 20, 7, -9⟩ 3 5 1000 64 s = .ok s' ∧
      s' (64 + 24 + 8 + 4 : Nat) = mem (1000 + 1 + 12 * 20 : Nat) ∧ s' (64 + 24 + 8 + 5 : Nat) = 0 ∧
      (wordAt s' (64 + 48 + 4 : Nat) : Int) =
        (sumTo 13 (fun q => ((mem (1000 + 1 + q * 20 : Nat)).toNat : Int)) * 7 + -9) % 4294967296 := by
  obtain ⟨s', e1, h1, h2, -⟩ := C62_packing (e := ⟨ar, f, mem, fun _ => true, 32, 160, v, x⟩)
    (p := ⟨.columnMajorWithSum, 13, 20, 7, -9⟩) (.inr rfl) (by decide) (by decide) (lanes := 3) (src := 1000)
    (dst := 64) (by decide) (by decide) (fun _ => rfl) (show 32 ≤ 64 by decide)
    (show 64 + StreamParams.packedStride ⟨.columnMajorWithSum, 13, 20, 7, -9⟩ 1 3 8 ≤ 160 by decide) (fun _ _ _ _ => rfl) s
  exact ⟨s', e1, h1 1 12 (by decide) (by decide), h1 1 13 (by decide) (by decide), h2 1 (by decide)⟩

/-! ## The product -/

/-- The sizes of tiles for which there is a kernel for every part of a tile. -/
def TileOk (km kn : Nat) : Prop :=
  (km = 1 ∧ 0 < kn ∧ kn ≤ 8) ∨ (km = 2 ∧ 0 < kn ∧ kn ≤ 4) ∨ (km = 3 ∧ 0 < kn ∧ kn ≤ 3)

theorem TileOk.sizes {km kn : Nat} (h : TileOk km kn) : ∀ mm nn, 0 < mm → mm ≤ km → 0 < nn → nn ≤ kn →
    (mm, nn) ∈ kernSizes := by
  intro mm nn h1 h2 h3 h4
  have h5 : (mm = 1 ∧ nn ≤ 8) ∨ (mm = 2 ∧ nn ≤ 4) ∨ (mm = 3 ∧ nn ≤ 3) := by unfold TileOk at h; omega
  rcases h5 with ⟨rfl, h5⟩ | ⟨rfl, h5⟩ | ⟨rfl, h5⟩ <;> interval_cases nn <;> decide

theorem TileOk.bounds {km kn : Nat} (h : TileOk km kn) : 0 < km ∧ 0 < kn ∧ km ≤ 8 ∧ kn ≤ 8 := by
  unfold TileOk at h; omega

/-- The entry of row `l` and column `r` (the addresses of their first elements) before it is converted:
products, and sums with offsets. -/
def rawEntry (mem : Int → BitVec 8) (left right : StreamParams) (l r : Nat) : Int :=
  entrySum (fun q => mem (l + q * left.elemStep : Nat)) (fun q => mem (r + q * right.elemStep : Nat)) left.count
    left.multiplicativeSumOffset left.additiveSumOffset right.multiplicativeSumOffset right.additiveSumOffset

section
variable {β : Type} {e : Env} {K : KernelAsm β} {g : BitVec 32 → β} {p : GemmParams} {km kn : Nat}

theorem contract_val (hk : p.k ≤ 2056) (kl : p.left.count = p.k) :
    (contractAsm e p.left p.right g).val = fun l r => g (BitVec.ofInt 32 (rawEntry e.mem p.left p.right l r)) := by
  funext l r
  unfold contractAsm rawEntry
  dsimp only
  rw [entryWord_eq (by omega)]

theorem packedStride_pos {q : StreamParams} (h : q.WithSum) (hc : 0 < q.count) {lanes : Nat} (hn : 0 < lanes) :
    0 < q.packedStride 1 lanes 8 := by
  have := packed_fits h lanes
  have h8 : 0 < up8 q.count := by unfold up8; omega
  have := Nat.mul_pos hn h8
  omega

/-- **C62** for `Gemm<GemmExecutorPackRHS, Params, km, kn, 8>` with any of the kernels (`hK`), operands in rows or
in columns. -/
theorem C62_gemm_packRHS (hK : KernelMeets e K p.outSize g) (ha : e.Aligned) (ht : TileOk km kn) (hl : p.left.WithSum)
    (hr : p.right.WithSum) (kl : p.left.count = p.k) (kr : p.right.count = p.k) (hk : 0 < p.k) (hk' : p.k ≤ 2056)
    (ho : p.out.kind = .rowMajor)
    (hL : ∀ i, i < p.m → ∀ q, q < p.k → e.readable (p.lhs + i * p.left.laneStep + q * p.left.elemStep : Nat) = true)
    (hR : ∀ i, i < p.n → ∀ q, q < p.k → e.readable (p.rhs + i * p.right.laneStep + q * p.right.elemStep : Nat) = true)
    (hb : ∃ q, p.scratch = e.base + 32 * q)
    (hcap : p.scratch + estimateScratchPackRHS p km kn 8 ≤ e.cap) (s : Int → BitVec 8) :
    ∃ s' l, gemm (fun t q => executePackRHS (opsAsm e K p.k p.left p.right p.out) t q s) km kn 8 p = .ok (s', l) ∧
      ∀ x, x ∈ l ↔ ∃ i j, i < p.m ∧ j < p.n ∧ x = (p.result + i * p.out.stride + j * p.outSize,
        g (BitVec.ofInt 32 (rawEntry e.mem p.left p.right (p.lhs + i * p.left.laneStep)
          (p.rhs + j * p.right.laneStep)))) := by
  have hb' := ht.bounds
  have := C58_gemm_packRHS (c := contractAsm e p.left p.right g) hb'.1 hb'.2.1 (show 0 < 8 by omega)
    (opsAsm_meets hK ha hl hr kl kr hk rfl rfl hb'.2.2.1 hb'.2.2.2 ht.sizes) ho
    (fun i hi q hq => hL i hi q (by omega)) (fun i hi q hq => hR i hi q (by omega)) hb hcap s
  rw [contract_val hk' kl] at this
  exact this

/-- **C62** for `Gemm<GemmExecutorPackLHS, ..>`. -/
theorem C62_gemm_packLHS (hK : KernelMeets e K p.outSize g) (ha : e.Aligned) (ht : TileOk km kn) (hl : p.left.WithSum)
    (hr : p.right.WithSum) (kl : p.left.count = p.k) (kr : p.right.count = p.k) (hk : 0 < p.k) (hk' : p.k ≤ 2056)
    (ho : p.out.kind = .rowMajor)
    (hL : ∀ i, i < p.m → ∀ q, q < p.k → e.readable (p.lhs + i * p.left.laneStep + q * p.left.elemStep : Nat) = true)
    (hR : ∀ i, i < p.n → ∀ q, q < p.k → e.readable (p.rhs + i * p.right.laneStep + q * p.right.elemStep : Nat) = true)
    (hb : ∃ q, p.scratch = e.base + 32 * q)
    (hcap : p.scratch + estimateScratchPackLHS p km kn 8 ≤ e.cap) (s : Int → BitVec 8) :
    ∃ s' l, gemm (fun t q => executePackLHS (opsAsm e K p.k p.left p.right p.out) t q s) km kn 8 p = .ok (s', l) ∧
      ∀ x, x ∈ l ↔ ∃ i j, i < p.m ∧ j < p.n ∧ x = (p.result + i * p.out.stride + j * p.outSize,
        g (BitVec.ofInt 32 (rawEntry e.mem p.left p.right (p.lhs + i * p.left.laneStep)
          (p.rhs + j * p.right.laneStep)))) := by
  have hb' := ht.bounds
  have := C58_gemm_packLHS (c := contractAsm e p.left p.right g) hb'.1 hb'.2.1 (show 0 < 8 by omega)
    (opsAsm_meets hK ha hl hr kl kr hk rfl rfl hb'.2.2.1 hb'.2.2.2 ht.sizes) ho
    (fun i hi q hq => hL i hi q (by omega)) (fun i hi q hq => hR i hi q (by omega)) hb hcap s
  rw [contract_val hk' kl] at this
  exact this

/-- **C62** for `Gemm<GemmExecutorPackRHSCacheFriendly<cacheSize>, ..>`. -/
theorem C62_cache_friendly_packRHS {cacheSize tasks : Nat} (hK : KernelMeets e K p.outSize g) (ha : e.Aligned) (ht : TileOk km kn)
    (hl : p.left.WithSum) (hr : p.right.WithSum) (kl : p.left.count = p.k) (kr : p.right.count = p.k) (hk : 0 < p.k)
    (hk' : p.k ≤ 2056) (ho : p.out.kind = .rowMajor) (hpm : 0 < p.m) (hpn : 0 < p.n)
    (htasks : cacheFriendlyTasksCount cacheSize (p.left.packedStride 1 km 8) (p.right.packedStride 1 kn 8) p.n kn = .ok tasks)
    (hL : ∀ i, i < p.m → ∀ q, q < p.k → e.readable (p.lhs + i * p.left.laneStep + q * p.left.elemStep : Nat) = true)
    (hR : ∀ i, i < p.n → ∀ q, q < p.k → e.readable (p.rhs + i * p.right.laneStep + q * p.right.elemStep : Nat) = true)
    (hb : ∃ q, p.scratch = e.base + 32 * q)
    (hcap : ∀ w ∈ cut p.n tasks, p.scratch + neededScratch p.left p.right w.2 km kn 8 ≤ e.cap) (s : Int → BitVec 8) :
    ∃ s' l, gemm (fun t q => executePackRHSCacheFriendly cacheSize (opsAsm e K p.k p.left p.right p.out) t q s) km kn 8
        p = .ok (s', l) ∧
      ∀ x, x ∈ l ↔ ∃ i j, i < p.m ∧ j < p.n ∧ x = (p.result + i * p.out.stride + j * p.outSize,
        g (BitVec.ofInt 32 (rawEntry e.mem p.left p.right (p.lhs + i * p.left.laneStep)
          (p.rhs + j * p.right.laneStep)))) := by
  have hb' := ht.bounds
  have := C58_cache_friendly_packRHS (c := contractAsm e p.left p.right g) hb'.1 hb'.2.1 (show 0 < 8 by omega)
    (opsAsm_meets hK ha hl hr kl kr hk rfl rfl hb'.2.2.1 hb'.2.2.2 ht.sizes) ho hpm hpn
    (packedStride_pos hr (by omega) hb'.2.1) htasks
    (fun i hi q hq => hL i hi q (by omega)) (fun i hi q hq => hR i hi q (by omega)) hb hcap s
  rw [contract_val hk' kl] at this
  exact this

/-- **C62** for `Gemm<GemmExecutorPackLHSCacheFriendly<cacheSize>, ..>`. -/
theorem C62_cache_friendly_packLHS {cacheSize tasks : Nat} (hK : KernelMeets e K p.outSize g) (ha : e.Aligned) (ht : TileOk km kn)
    (hl : p.left.WithSum) (hr : p.right.WithSum) (kl : p.left.count = p.k) (kr : p.right.count = p.k) (hk : 0 < p.k)
    (hk' : p.k ≤ 2056) (ho : p.out.kind = .rowMajor) (hpm : 0 < p.m) (hpn : 0 < p.n)
    (htasks : cacheFriendlyTasksCount cacheSize (p.right.packedStride 1 kn 8) (p.left.packedStride 1 km 8) p.m km = .ok tasks)
    (hL : ∀ i, i < p.m → ∀ q, q < p.k → e.readable (p.lhs + i * p.left.laneStep + q * p.left.elemStep : Nat) = true)
    (hR : ∀ i, i < p.n → ∀ q, q < p.k → e.readable (p.rhs + i * p.right.laneStep + q * p.right.elemStep : Nat) = true)
    (hb : ∃ q, p.scratch = e.base + 32 * q)
    (hcap : ∀ w ∈ cut p.m tasks, p.scratch + neededScratch p.right p.left w.2 kn km 8 ≤ e.cap) (s : Int → BitVec 8) :
    ∃ s' l, gemm (fun t q => executePackLHSCacheFriendly cacheSize (opsAsm e K p.k p.left p.right p.out) t q s) km kn 8
        p = .ok (s', l) ∧
      ∀ x, x ∈ l ↔ ∃ i j, i < p.m ∧ j < p.n ∧ x = (p.result + i * p.out.stride + j * p.outSize,
        g (BitVec.ofInt 32 (rawEntry e.mem p.left p.right (p.lhs + i * p.left.laneStep)
          (p.rhs + j * p.right.laneStep)))) := by
  have hb' := ht.bounds
  have := C58_cache_friendly_packLHS (c := contractAsm e p.left p.right g) hb'.1 hb'.2.1 (show 0 < 8 by omega)
    (opsAsm_meets hK ha hl hr kl kr hk rfl rfl hb'.2.2.1 hb'.2.2.2 ht.sizes) ho hpm hpn
    (packedStride_pos hl (by omega) hb'.1) htasks
    (fun i hi q hq => hL i hi q (by omega)) (fun i hi q hq => hR i hi q (by omega)) hb hcap s
  rw [contract_val hk' kl] at this
  exact this

/-- **C62** for `MultiThreadGemm` with `GemmExecutorPackRHS`: the stores of all tasks together. -/
theorem C62_multi_thread {maxThreads : Int} (hK : KernelMeets e K p.outSize g) (ha : e.Aligned) (ht : TileOk km kn)
    (hl : p.left.WithSum) (hr : p.right.WithSum) (kl : p.left.count = p.k) (kr : p.right.count = p.k) (hk : 0 < p.k)
    (hk' : p.k ≤ 2056) (ho : p.out.kind = .rowMajor) (hpm : 0 < p.m) (hpn : 0 < p.n)
    (hint : p.m * p.n * p.k ≤ 2147483647)
    (hL : ∀ i, i < p.m → ∀ q, q < p.k → e.readable (p.lhs + i * p.left.laneStep + q * p.left.elemStep : Nat) = true)
    (hR : ∀ i, i < p.n → ∀ q, q < p.k → e.readable (p.rhs + i * p.right.laneStep + q * p.right.elemStep : Nat) = true)
    (hb : ∃ q, p.scratch = e.base + 32 * q)
    (hcap1 : p.scratch + estimateScratchPackRHS p km kn 8 ≤ e.cap)
    (hcap : ∀ ts, prepareGemmTasks (fun q => estimateScratchPackRHS q km kn 8) maxThreads p = .ok (some ts) →
      ∀ q ∈ ts, q.scratch + estimateScratchPackRHS q km kn 8 ≤ e.cap) (s : Int → BitVec 8) :
    ∃ ls, multiThreadGemmTasks
        (fun q s => gemm (fun t q => executePackRHS (opsAsm e K p.k p.left p.right p.out) t q s) km kn 8 q)
        (fun q => estimateScratchPackRHS q km kn 8) maxThreads p s = .ok ls ∧
      ∀ x, x ∈ ls.flatten ↔ ∃ i j, i < p.m ∧ j < p.n ∧ x = (p.result + i * p.out.stride + j * p.outSize,
        g (BitVec.ofInt 32 (rawEntry e.mem p.left p.right (p.lhs + i * p.left.laneStep)
          (p.rhs + j * p.right.laneStep)))) := by
  have hb' := ht.bounds
  obtain ⟨ls, rects, e1, -, -, -, h⟩ := C58_multi_thread (c := contractAsm e p.left p.right g) hb'.1 hb'.2.1
    (show 0 < 8 by omega)
    (opsAsm_meets (t := ⟨km, kn, 8, 0, 0, p.k % 8⟩) hK ha hl hr kl kr hk rfl rfl hb'.2.2.1 hb'.2.2.2 ht.sizes) ho hpm hpn hk
    hint (fun i hi q hq => hL i hi q (by omega)) (fun i hi q hq => hR i hi q (by omega)) hb hcap1 hcap s
  rw [contract_val hk' kl] at h
  exact ⟨ls, e1, h⟩

end

/-- `C62_gemm_packRHS` for a 5 x 7 product of depth 13 with the 3 x 3 kernel and `int32` results; the left operand is
in columns with a gap, the right one in rows. -/
example (ar : Arch) (f : FloatOps) (mem : Int → BitVec 8) (v : Nat → Vec.VReg) (x : X → Int) (s : Int → BitVec 8) :
    ∃ s' l, gemm (fun t q => executePackRHS (opsAsm ⟨ar, f, mem, fun _ => true, 0, 65536, v, x⟩ (i32Kernel ar) 13
        ⟨.columnMajorWithSum, 13, 6, 3, 4⟩ ⟨.rowMajorWithSum, 13, 13, 5, 0⟩ ⟨.rowMajor, 0, 28, 0, 0⟩) t q s) 3 3 8
        ⟨5, 7, 13, 0, 100, 0, 0, ⟨.columnMajorWithSum, 13, 6, 3, 4⟩, ⟨.rowMajorWithSum, 13, 13, 5, 0⟩,
          ⟨.rowMajor, 0, 28, 0, 0⟩, 4⟩ = .ok (s', l) ∧
      ∀ y, y ∈ l ↔ ∃ i j, i < 5 ∧ j < 7 ∧ y = (0 + i * 28 + j * 4, BitVec.ofInt 32
        (entrySum (fun q => mem (0 + i * 1 + q * 6 : Nat)) (fun q => mem (100 + j * 13 + q * 1 : Nat)) 13 3 4 5 0)) :=
  C62_gemm_packRHS (g := fun x => x) (i32_meets ⟨ar, f, mem, fun _ => true, 0, 65536, v, x⟩) (fun _ => rfl) (.inr (.inr ⟨rfl, by omega, by omega⟩)) (.inr rfl) (.inl rfl) rfl rfl
    (by decide) (by decide) rfl (fun _ _ _ _ => rfl) (fun _ _ _ _ => rfl) ⟨0, rfl⟩ (show 0 + 65536 ≤ 65536 by decide) s

/-! ## The legacy entry points -/

/-- The entry of rows `l` and `r` of `k` bytes: the sum of the products of their elements with the offsets added. -/
def dotOffset (mem : Int → BitVec 8) (k : Nat) (lo ro : Int) (l r : Nat) : Int :=
  sumTo k fun q => ((mem (l + q : Nat)).toNat + lo) * ((mem (r + q : Nat)).toNat + ro)

theorem dot_expand (a b : Nat → Int) (lo ro : Int) : ∀ k : Nat,
    sumTo k (fun q => (a q + lo) * (b q + ro)) =
      sumTo k (fun q => a q * b q) + sumTo k a * ro + sumTo k b * lo + k * lo * ro
  | 0 => by simp
  | k + 1 => by
    rw [sumTo_succ, sumTo_succ, sumTo_succ, sumTo_succ, dot_expand a b lo ro k]
    push_cast
    ring

theorem rawEntry_legacy (mem : Int → BitVec 8) (k : Nat) (z lo ro : Int) (l r : Nat) :
    rawEntry mem (legacyLeft k ro (z + k * lo * ro)) (legacyLeft k lo 0) l r = z + dotOffset mem k lo ro l r := by
  unfold rawEntry entrySum dotOffset
  rw [dot_expand]
  simp only [legacyLeft, StreamParams.elemStep, Nat.mul_one]
  ring

theorem legacyAsm_meets {β : Type} {e : Env} {K : KernelAsm β} {g : BitVec 32 → β} {o : LegacyOp (Int → BitVec 8) β}
    (hK : KernelMeets e K o.outSize g) (ha : e.Aligned) (ho : ∀ l r out, o.ops l r out = opsAsm e K l.count l r out)
    (ht : ∀ k, o.gemvTile k = (2, 4) ∨ o.gemvTile k = (1, 8) ∨ o.gemvTile k = (1, 6)) {k : Nat} (hk : 0 < k)
    (hk' : k ≤ 2056) :
    o.Meets (fun lo ro l r => g (BitVec.ofInt 32 (o.sumOffset + dotOffset e.mem k lo ro l r))) k
      (fun a => ∀ q, q < k → e.readable (a + q : Nat) = true) e.base e.cap where
  code := by
    intro lo ro stride km kn ht
    have htile : TileOk km kn := by
      unfold TileOk
      rcases ht with h | h | h <;> cases h <;> omega
    have hb := htile.bounds
    refine ⟨contractAsm e (legacyLeft k ro (o.sumOffset + k * lo * ro)) (legacyLeft k lo 0) g, ?_, ?_, ?_⟩
    · funext l r
      rw [← rawEntry_legacy]
      unfold contractAsm rawEntry
      dsimp only
      rw [entryWord_eq (show (legacyLeft k ro (o.sumOffset + k * lo * ro)).count ≤ 2056 from hk')]
    · intro a ha
      refine ⟨fun q hq => ?_, fun q hq => ?_⟩ <;>
        (have := ha q hq; simpa [legacyLeft, StreamParams.elemStep] using this)
    · rw [ho]
      exact opsAsm_meets (k := k) (t := ⟨km, kn, 8, 0, 0, k % 8⟩) hK ha (.inl rfl) (.inl rfl) rfl rfl hk rfl rfl hb.2.2.1 hb.2.2.2
        htile.sizes
  swap := by
    intro lo ro l r
    unfold dotOffset
    congr 4
    funext q
    exact Int.mul_comm _ _
  tile := ht

section
variable {e : Env} {k : Nat} {lo ro : Int} {hw maxThreads : Int} {scratch lhs rhs m n result : Nat}

theorem sizes_pos (hk : SizesOk n k) : 0 < k ∧ k ≤ 2056 := by
  obtain ⟨h1, h2⟩ := hk
  rcases h2 with h | h <;> omega

/-- **C62** for `multi_thread_gemm_i32` on ARM: the stores of all tasks are the entries of the product with
the offsets added, modulo 2^32. -/
theorem C62_legacy_i32 (ha : e.Aligned) (hf : OffsetsFit 0 k lo ro) (hpm : 0 < m) (hpn : 0 < n)
    (hk : SizesOk n k) (hint : m * n * k ≤ 2147483647)
    (hL : ∀ i, i < m → ∀ q, q < k → e.readable (lhs + i * k + q : Nat) = true)
    (hR : ∀ i, i < n → ∀ q, q < k → e.readable (rhs + i * k + q : Nat) = true)
    (hb : ∃ q, scratch = e.base + 32 * q)
    (hcap : (scratch : Int) + max 1 (resolveMaxThreads hw maxThreads) * 1048576 ≤ e.cap) (s : Int → BitVec 8) :
    ∃ ls, multiThreadGemm (i32Legacy e) hw maxThreads scratch lhs rhs m n k lo ro result s = .ok ls ∧
      ∀ x, x ∈ ls.flatten ↔ ∃ i j, i < m ∧ j < n ∧ x = (result + i * (n * 4) + j * 4,
        BitVec.ofInt 32 (sumTo k fun q => ((e.mem (lhs + i * k + q : Nat)).toNat + lo) *
          ((e.mem (rhs + j * k + q : Nat)).toNat + ro))) := by
  have h := C58_legacy (legacyAsm_meets (o := i32Legacy e) (i32_meets e) ha (fun _ _ _ => rfl) (by
      intro k; show i32GemvTile k = _ ∨ i32GemvTile k = _ ∨ i32GemvTile k = _; unfold i32GemvTile; split <;> simp)
      (sizes_pos hk).1 (sizes_pos hk).2) hf rfl hpm hpn hk hint hL hR hb hcap (result := result) s
  obtain ⟨ls, e1, h1⟩ := h
  refine ⟨ls, e1, fun x => ?_⟩
  rw [h1]
  unfold Entry
  simp only [i32Legacy, Int.zero_add]
  rfl

/-- **C62** for `multi_thread_gemm_f` on ARM: `float(entry) * result_offset`, with the conversion and the
multiplication of the machine. -/
theorem C62_legacy_f32 {scale : BitVec 32} (ha : e.Aligned) (hf : OffsetsFit 0 k lo ro) (hpm : 0 < m) (hpn : 0 < n)
    (hk : SizesOk n k) (hint : m * n * k ≤ 2147483647)
    (hL : ∀ i, i < m → ∀ q, q < k → e.readable (lhs + i * k + q : Nat) = true)
    (hR : ∀ i, i < n → ∀ q, q < k → e.readable (rhs + i * k + q : Nat) = true)
    (hb : ∃ q, scratch = e.base + 32 * q)
    (hcap : (scratch : Int) + max 1 (resolveMaxThreads hw maxThreads) * 1048576 ≤ e.cap) (s : Int → BitVec 8) :
    ∃ ls, multiThreadGemm (f32Legacy e scale) hw maxThreads scratch lhs rhs m n k lo ro result s = .ok ls ∧
      ∀ x, x ∈ ls.flatten ↔ ∃ i j, i < m ∧ j < n ∧ x = (result + i * (n * 4) + j * 4,
        e.f.mul (e.f.ofInt (BitVec.ofInt 32 (sumTo k fun q => ((e.mem (lhs + i * k + q : Nat)).toNat + lo) *
          ((e.mem (rhs + j * k + q : Nat)).toNat + ro)))) scale) := by
  have h := C58_legacy (legacyAsm_meets (o := f32Legacy e scale) (f32_meets e scale) ha (fun _ _ _ => rfl) (by
      intro k; show i32GemvTile k = _ ∨ i32GemvTile k = _ ∨ i32GemvTile k = _; unfold i32GemvTile; split <;> simp)
      (sizes_pos hk).1 (sizes_pos hk).2) hf rfl hpm hpn hk hint hL hR hb hcap (result := result) s
  obtain ⟨ls, e1, h1⟩ := h
  refine ⟨ls, e1, fun x => ?_⟩
  rw [h1]
  unfold Entry
  simp only [f32Legacy, Int.zero_add]
  rfl

/-- The quantized entry: the value times the multiplier, shifted right with rounding to the nearest, between 0 and
255. -/
def quantized (mult : Int) (shift : Nat) (x : Int) : Int :=
  max 0 (min 255 ((x * mult + 2 ^ (shift - 1)) / 2 ^ shift))

theorem quantize_eq {mult : Int} {shift : Nat} {x : Int} (h1 : 1 ≤ shift) (h31 : shift ≤ 31)
    (hx : InI32 (x * mult + 2 ^ (shift - 1))) :
    quantize mult (2 ^ (shift - 1)) (-(shift : Int)) (BitVec.ofInt 32 x) =
      BitVec.ofInt 8 (quantized mult shift x) := by
  have eP : (2 : Int) ^ (shift - 1) * 2 = 2 ^ shift := by rw [← pow_succ]; congr 1; omega
  unfold quantize quantized
  rw [← BitVec.ofInt_mul, ← BitVec.ofInt_add]
  obtain ⟨y, hy⟩ : ∃ y, y = x * mult + 2 ^ (shift - 1) := ⟨_, rfl⟩
  rw [← hy] at hx ⊢
  have hs : (BitVec.extractLsb' 0 8 (BitVec.ofInt 32 (-(shift : Int)))).toInt = -(shift : Int) := by
    interval_cases shift <;> decide
  have hti : (BitVec.ofInt 32 y).toInt = y := by
    rw [BitVec.toInt_ofInt]
    exact Int.bmod_eq_of_le (by have := hx.1; omega) (by have := hx.2; omega)
  have hsh : (MetaAsm.sshl (BitVec.ofInt 32 y) (BitVec.ofInt 32 (-(shift : Int)))).toInt = y / 2 ^ shift := by
    unfold MetaAsm.sshl
    dsimp only
    rw [hs, if_neg (by omega), BitVec.toInt_sshiftRight, hti, show (-(-(shift : Int))).toNat = shift by omega,
      Int.shiftRight_eq_div_pow]
    norm_cast
  obtain ⟨z, hz⟩ : ∃ z, z = y / 2 ^ shift := ⟨_, rfl⟩
  unfold MetaAsm.satU8
  have h16 : (MetaAsm.sat16 (MetaAsm.sshl (BitVec.ofInt 32 y) (BitVec.ofInt 32 (-(shift : Int))))).toInt =
      if z < -32768 then -32768 else if 32767 < z then 32767 else z := by
    unfold MetaAsm.sat16
    rw [hsh, ← hz, BitVec.toInt_ofInt]
    apply Int.bmod_eq_of_le <;> split <;> (try split) <;> omega
  rw [h16, ← hz]
  congr 1
  split <;> split <;> (try split) <;> (try split) <;> omega

/-- **C62** for `multi_thread_gemm_q8` on ARM, without conditions on the data: the kernels multiply and add
the rounding constant modulo 2^32. -/
theorem C62_legacy_q8_wrapping {z mult : Int} {shift : Nat} (ha : e.Aligned) (h1 : 1 ≤ shift) (h31 : shift ≤ 31)
    (hf : OffsetsFit z k lo ro) (hpm : 0 < m) (hpn : 0 < n) (hk : SizesOk n k) (hint : m * n * k ≤ 2147483647)
    (hL : ∀ i, i < m → ∀ q, q < k → e.readable (lhs + i * k + q : Nat) = true)
    (hR : ∀ i, i < n → ∀ q, q < k → e.readable (rhs + i * k + q : Nat) = true)
    (hb : ∃ q, scratch = e.base + 32 * q)
    (hcap : (scratch : Int) + max 1 (resolveMaxThreads hw maxThreads) * 1048576 ≤ e.cap) (s : Int → BitVec 8) :
    ∃ ls, multiThreadGemm (q8Legacy e z mult shift) hw maxThreads scratch lhs rhs m n k lo ro result s = .ok ls ∧
      ∀ x, x ∈ ls.flatten ↔ ∃ i j, i < m ∧ j < n ∧ x = (result + i * n + j,
        quantize mult (2 ^ (shift - 1)) (-(shift : Int)) (BitVec.ofInt 32 (z + sumTo k fun q =>
          ((e.mem (lhs + i * k + q : Nat)).toNat + lo) * ((e.mem (rhs + j * k + q : Nat)).toNat + ro)))) := by
  have h := C58_legacy (legacyAsm_meets (o := q8Legacy e z mult shift) (q8_meets e mult shift) ha (fun _ _ _ => rfl) (by
      intro k; show q8GemvTile k = _ ∨ q8GemvTile k = _ ∨ q8GemvTile k = _; unfold q8GemvTile; split <;> simp)
      (sizes_pos hk).1 (sizes_pos hk).2) hf (show q8Constants shift = .ok () by
        unfold q8Constants; rw [if_pos (by omega)]) hpm hpn hk hint hL hR hb hcap (result := result) s
  obtain ⟨ls, e1, h2⟩ := h
  refine ⟨ls, e1, fun x => ?_⟩
  rw [h2]
  unfold Entry
  simp only [q8Legacy, Nat.mul_one]
  rw [show ((shift : Int) - 1).toNat = shift - 1 by omega]
  rfl

/-- **C62** for `multi_thread_gemm_q8` on ARM: the stores of all tasks are the quantized entries, if these
fit in an `int32` before the shift. -/
theorem C62_legacy_q8 {z mult : Int} {shift : Nat} (ha : e.Aligned) (h1 : 1 ≤ shift) (h31 : shift ≤ 31) (hf : OffsetsFit z k lo ro)
    (hpm : 0 < m) (hpn : 0 < n) (hk : SizesOk n k) (hint : m * n * k ≤ 2147483647)
    (hL : ∀ i, i < m → ∀ q, q < k → e.readable (lhs + i * k + q : Nat) = true)
    (hR : ∀ i, i < n → ∀ q, q < k → e.readable (rhs + i * k + q : Nat) = true)
    (hb : ∃ q, scratch = e.base + 32 * q)
    (hcap : (scratch : Int) + max 1 (resolveMaxThreads hw maxThreads) * 1048576 ≤ e.cap)
    (hfit : ∀ i j, i < m → j < n →
      InI32 ((z + dotOffset e.mem k lo ro (lhs + i * k) (rhs + j * k)) * mult + 2 ^ (shift - 1))) (s : Int → BitVec 8) :
    ∃ ls, multiThreadGemm (q8Legacy e z mult shift) hw maxThreads scratch lhs rhs m n k lo ro result s = .ok ls ∧
      ∀ x, x ∈ ls.flatten ↔ ∃ i j, i < m ∧ j < n ∧ x = (result + i * n + j, BitVec.ofInt 8
        (quantized mult shift (z + sumTo k fun q => ((e.mem (lhs + i * k + q : Nat)).toNat + lo) *
          ((e.mem (rhs + j * k + q : Nat)).toNat + ro)))) := by
  obtain ⟨ls, e1, h2⟩ := C62_legacy_q8_wrapping (e := e) (result := result) (mult := mult) ha h1 h31 hf hpm hpn hk hint hL hR
    hb hcap s
  refine ⟨ls, e1, fun x => ?_⟩
  rw [h2]
  have hq : ∀ i j, i < m → j < n → quantize mult (2 ^ (shift - 1)) (-(shift : Int))
      (BitVec.ofInt 32 (z + dotOffset e.mem k lo ro (lhs + i * k) (rhs + j * k))) = _ :=
    fun i j hi hj => quantize_eq h1 h31 (hfit i j hi hj)
  constructor
  · rintro ⟨i, j, hi, hj, rfl⟩
    exact ⟨i, j, hi, hj, congrArg (Prod.mk _) (hq i j hi hj)⟩
  · rintro ⟨i, j, hi, hj, rfl⟩
    exact ⟨i, j, hi, hj, (congrArg (Prod.mk _) (hq i j hi hj)).symm⟩

end

/-- `C62_legacy_i32` for a product that is cut both among threads and into chunks: 500 rows, 2000 columns,
depth 1001, offsets -128, four threads. -/
example (ar : Arch) (f : FloatOps) (mem : Int → BitVec 8) (v : Nat → Vec.VReg) (x : X → Int) (s : Int → BitVec 8) :
    ∃ ls, multiThreadGemm (i32Legacy ⟨ar, f, mem, fun _ => true, 0, 4194304, v, x⟩) 8 4 0 0 600000 500 2000 1001 (-128)
        (-128) 0 s = .ok ls ∧
      ∀ y, y ∈ ls.flatten ↔ ∃ i j, i < 500 ∧ j < 2000 ∧ y = (0 + i * (2000 * 4) + j * 4,
        BitVec.ofInt 32 (sumTo 1001 fun q => ((mem (0 + i * 1001 + q : Nat)).toNat + -128) *
          ((mem (600000 + j * 1001 + q : Nat)).toNat + -128))) :=
  C62_legacy_i32 (fun _ => rfl) (by unfold OffsetsFit; decide) (by omega) (by omega) ⟨by omega, .inl (by omega)⟩ (by omega)
    (fun _ _ _ _ => rfl) (fun _ _ _ _ => rfl) ⟨0, rfl⟩ (show (0 : Int) + 4 * 1048576 ≤ 4194304 by decide) s

/-- `C62_legacy_q8`: the sizes and offsets of the last example, multiplier 1 and shift 8; all the
bytes are 100, so that the products are small. -/
example (ar : Arch) (f : FloatOps) (v : Nat → Vec.VReg) (x : X → Int) (s : Int → BitVec 8) :
    ∃ ls, multiThreadGemm (q8Legacy ⟨ar, f, fun _ => 100, fun _ => true, 0, 4194304, v, x⟩ 0 1 (8 : Nat)) 8 4 0 0 600000 500
        2000 1000 (-128) (-128) 0 s = .ok ls ∧
      ∀ y, y ∈ ls.flatten ↔ ∃ i j, i < 500 ∧ j < 2000 ∧ y = (0 + i * 2000 + j,
        BitVec.ofInt 8 (quantized 1 8 (0 + sumTo 1000 fun _ => (100 + -128) * (100 + -128)))) :=
  C62_legacy_q8 (fun _ => rfl) (by omega) (by omega) (by unfold OffsetsFit; decide) (by omega) (by omega) ⟨by omega, .inl (by omega)⟩
    (by omega) (fun _ _ _ _ => rfl) (fun _ _ _ _ => rfl) ⟨0, rfl⟩ (show (0 : Int) + 4 * 1048576 ≤ 4194304 by decide)
    (by
      intro i j _ _
      show InI32 ((0 + sumTo 1000 fun _ => ((100 : Nat) + -128) * ((100 : Nat) + -128)) * 1 + 2 ^ 7)
      rw [sumTo_const]
      decide) s

/-! ## Where it fails -/

/-- The sum of 2064 bytes 255, as the packing code has it: 2032 instead of 526320. -/
theorem laneSum_wraps : laneSum (fun _ => 255) 2064 = 2032 := by decide +kernel

/-- **C62**, finding F35: at depth 2064 the sums of the lanes wrap around, because the packing code adds up bytes in
16-bit counters and nothing limits the depth: the 1 x 1 product of two rows of bytes 255 with both
offsets -255 (the parameters are those of the legacy interface) is 0, and the code stores
267386880. -/
theorem C62_depth_fails (ar : Arch) (f : FloatOps) (v : Nat → Vec.VReg) (x : X → Int) (s : Int → BitVec 8) :
    (∃ s' l, gemm (fun t q => executePackRHS (opsAsm ⟨ar, f, fun _ => 255, fun _ => true, 0, 65536, v, x⟩ (i32Kernel ar) 2064
          (legacyLeft 2064 (-255) (2064 * (-255) * (-255))) (legacyLeft 2064 (-255) 0) ⟨.rowMajor, 0, 4, 0, 0⟩) t q s)
        2 4 8 ⟨1, 1, 2064, 0, 5000, 0, 0, legacyLeft 2064 (-255) (2064 * (-255) * (-255)), legacyLeft 2064 (-255) 0,
          ⟨.rowMajor, 0, 4, 0, 0⟩, 4⟩ = .ok (s', l) ∧ ∀ y, y ∈ l ↔ y = (0, 267386880#32)) ∧
      dotOffset (fun _ => 255) 2064 (-255) (-255) 0 5000 = 0 := by
  constructor
  · have h := C58_gemm_packRHS
      (c := contractAsm ⟨ar, f, fun _ => 255, fun _ => true, 0, 65536, v, x⟩
        (legacyLeft 2064 (-255) (2064 * (-255) * (-255))) (legacyLeft 2064 (-255) 0) (fun x => x))
      (p := ⟨1, 1, 2064, 0, 5000, 0, 0, legacyLeft 2064 (-255) (2064 * (-255) * (-255)), legacyLeft 2064 (-255) 0,
          ⟨.rowMajor, 0, 4, 0, 0⟩, 4⟩) (show 0 < 2 by omega) (show 0 < 4 by omega) (show 0 < 8 by omega)
      (opsAsm_meets (k := 2064) (i32_meets ⟨ar, f, fun _ => 255, fun _ => true, 0, 65536, v, x⟩) (fun _ => rfl) (.inl rfl) (.inl rfl) rfl rfl (by omega) rfl rfl (by decide) (by decide)
        (TileOk.sizes (km := 2) (kn := 4) (.inr (.inl ⟨rfl, by omega, by omega⟩)))) rfl
      (fun _ _ _ _ => rfl) (fun _ _ _ _ => rfl) ⟨0, rfl⟩ (by
        show 0 + 65536 ≤ 65536
        decide) s
    obtain ⟨s', l, e1, h1⟩ := h
    refine ⟨s', l, e1, fun y => ?_⟩
    rw [h1]
    unfold Entry
    have hv : ∀ a b, (contractAsm ⟨ar, f, fun _ => 255, fun _ => true, 0, 65536, v, x⟩
        (legacyLeft 2064 (-255) (2064 * (-255) * (-255))) (legacyLeft 2064 (-255) 0) (fun x => x)).val a b =
        267386880#32 := by
      intro a b
      show entryWord (fun _ => 255) (fun _ => 255) 2064 (-255) (2064 * (-255) * (-255)) (-255) 0 = _
      decide +kernel
    constructor
    · rintro ⟨i, j, hi, hj, rfl⟩
      have : i = 0 := by simpa using hi
      have : j = 0 := by simpa using hj
      subst i j
      rw [hv]
      rfl
    · rintro rfl
      exact ⟨0, 0, by simp, by simp, by rw [hv]; rfl⟩
  · unfold dotOffset
    have : (fun q : Nat => (((255 : BitVec 8).toNat : Int) + -255) * (((255 : BitVec 8).toNat : Int) + -255)) =
        fun _ => 0 := by funext q; rfl
    rw [this]
    decide +kernel

end Meta
end Gemmlowp
