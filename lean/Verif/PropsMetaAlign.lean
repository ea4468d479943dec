import Verif.MetaMisalign
import Verif.PropsMetaArm
/-!
# C66: the scratch memory of meta/ on 32-bit ARM has to be aligned

The code for 32-bit ARM marks its accesses to packed data as aligned (`[%[out]:64]`, `:128`, `:256`).  C62 says that a
multiple of 32 is enough; here: how much is needed, and what happens to callers that do not know.
-/
namespace Gemmlowp
namespace Meta

open MetaAsm (FloatOps X St Prog PackCode machine alignedIn faults row_code col_code)

/-- What has to divide the address of packed data with `lanes` lanes: as much of 32 as divides a group of 8 elements
of each lane. -/
def packAlign (lanes : Nat) : Nat := Nat.gcd 32 (8 * lanes)

/-- 8, 16 or 32 bytes. -/
example : (List.range 8).map (fun n => packAlign (n + 1)) = [8, 16, 8, 32, 8, 16, 8, 32] := by decide

theorem fault_row {n L : Nat} (h0 : 0 < n) (h8 : n ≤ 8) (hL : L < 8) {p : Prog} (h : Arch.arm32.row n L = some p) :
    faults (packAlign n) p = true := by
  have hh := MetaAsm.rows32_fault
  simp only [List.all_eq_true, List.mem_range] at hh
  obtain ⟨q, h1, h2⟩ := any_some (hh (n - 1) (by omega) L hL)
  rw [show n - 1 + 1 = n by omega] at h1 h2
  have : Arch.arm32.row n L = some q.code := by show (MetaAsm.row32Prog n L).map _ = _; rw [h1]; rfl
  rw [this] at h
  cases h
  exact h2

theorem fault_col {n L : Nat} (h0 : 0 < n) (h8 : n ≤ 8) (hL : L < 8) {p : Prog} (h : Arch.arm32.col n L = some p) :
    faults (packAlign n) p = true := by
  have hh := MetaAsm.cols32_fault
  simp only [List.all_eq_true, List.mem_range] at hh
  obtain ⟨q, h1, h2⟩ := any_some (hh (n - 1) (by omega) L hL)
  rw [show n - 1 + 1 = n by omega] at h1 h2
  have : Arch.arm32.col n L = some q.code := by show (MetaAsm.col32Prog n L).map _ = _; rw [h1]; rfl
  rw [this] at h
  cases h
  exact h2

/-- **C66**, the packing code: on 32-bit ARM, `Stream<.., lanes, 8, count % 8>::Pack` faults whenever the destination
is not a multiple of `packAlign lanes`, whatever the operand and the destination are otherwise. -/
theorem C66_packing_faults {e : Env} (he : e.arch = .arm32) {p : StreamParams} (hp : p.WithSum) (hk : 0 < p.count)
    {lanes src dst : Nat} (h0 : 0 < lanes) (h8 : lanes ≤ 8) (ha : dst % packAlign lanes ≠ 0) (s : Int → BitVec 8) :
    packAsm e p lanes (p.count % 8) src dst s = .error .misaligned := by
  have main : ∀ g P c, packProg e.arch p.kind lanes (p.count % 8) = some g → faults (packAlign lanes) g = true →
      PackCode e.f e.mem g (fun _ => true) lanes p.count c ⟨e.v, packRegs p src dst e.x, [], [], []⟩ P →
      packAsm e p lanes (p.count % 8) src dst s = .error .misaligned := by
    intro g P c hg hf hP
    obtain ⟨t, et, -⟩ := hP.run h0 hk rfl rfl rfl
    have hal : alignedIn t.al = false := by
      refine MetaAsm.faults_run hf e.f e.mem ?_ et
      show (dst : Int) % _ ≠ 0
      exact_mod_cast ha
    unfold packAsm
    rw [hg]
    dsimp only
    rw [et]
    dsimp only
    rw [hal]
    rfl
  rcases hp with hkind | hkind
  · obtain ⟨g, hg, hok, hred, -⟩ := arch_row e.arch (n := lanes) (L := p.count % 8) h0 h8 (by omega)
    exact main g _ _ (by rw [hkind]; exact hg) (fault_row h0 h8 (by omega) (he ▸ hg))
      (row_code hok e.f e.mem (hred _ _) (fun _ => true) ⟨e.v, packRegs p src dst e.x, [], [], []⟩
        (fun _ _ _ _ => rfl))
  · obtain ⟨g, hg, hok, hred, -⟩ := arch_col e.arch (n := lanes) (L := p.count % 8) h0 h8 (by omega)
    exact main g _ _ (by rw [hkind]; exact hg) (fault_col h0 h8 (by omega) (he ▸ hg))
      (col_code hok e.f e.mem (hred _ _) (fun _ => true) ⟨e.v, packRegs p src dst e.x, [], [], []⟩
        (fun _ _ _ _ => rfl))

/-- **C66**, exactly: with an operand that can be read and with the room that `PackedStride` gives, the code for 32-bit
ARM packs if and only if the destination is a multiple of `packAlign lanes`; the code for 64-bit ARM always does. -/
theorem C66_packing {e : Env} {p : StreamParams} (hp : p.WithSum) (hk : 0 < p.count) {lanes src dst : Nat}
    (h0 : 0 < lanes) (h8 : lanes ≤ 8) (hb : e.base ≤ dst) (hc : dst + p.packedStride 1 lanes 8 ≤ e.cap)
    (hr : ∀ i, i < lanes → ∀ q, q < p.count →
      e.readable (src + i * p.laneStep + q * p.elemStep : Nat) = true) (s : Int → BitVec 8) :
    (∃ s', packAsm e p lanes (p.count % 8) src dst s = .ok s') ↔ (e.arch = .arm32 → dst % packAlign lanes = 0) := by
  constructor
  · rintro ⟨s', h⟩ he
    by_contra hne
    rw [C66_packing_faults he hp hk h0 h8 hne s] at h
    cases h
  · intro ha
    obtain ⟨s', h, -⟩ := packAsm_spec (src := src) hp hk h0 h8 ha hb hc hr s
    exact ⟨s', h⟩

/-- Four rows of nine bytes packed at 8, as for a block from `malloc`. -/
example (f : FloatOps) (mem : Int → BitVec 8) (v : Nat → Vec.VReg) (x : X → Int) (s : Int → BitVec 8) :
    (¬ ∃ s', packAsm ⟨.arm32, f, mem, fun _ => true, 8, 1000, v, x⟩ ⟨.rowMajorWithSum, 9, 9, 1, 0⟩ 4 1 0 8 s = .ok s') ∧
    ∃ s', packAsm ⟨.arm64, f, mem, fun _ => true, 8, 1000, v, x⟩ ⟨.rowMajorWithSum, 9, 9, 1, 0⟩ 4 1 0 8 s = .ok s' := by
  have h : ∀ ar, _ := fun ar => C66_packing (e := ⟨ar, f, mem, fun _ => true, 8, 1000, v, x⟩)
    (p := ⟨.rowMajorWithSum, 9, 9, 1, 0⟩) (.inl rfl) (by decide) (lanes := 4) (src := 0) (dst := 8) (by decide) (by decide)
    (show 8 ≤ 8 by decide) (show 8 + StreamParams.packedStride ⟨.rowMajorWithSum, 9, 9, 1, 0⟩ 1 4 8 ≤ 1000 by decide)
    (fun _ _ _ _ => rfl) s
  refine ⟨fun h1 => ?_, (h .arm64).2 (fun h1 => by cases h1)⟩
  have := (h .arm32).1 h1 rfl
  revert this
  decide

theorem packSide_fails {σ : Type} {packF packL : Nat → Nat → σ → M σ} {chunks chunkSize packedSize src dst : Nat} {s : σ}
    {er : Fault} (hc : 0 < chunks) (h : packF src dst s = .error er) :
    packSide packF packL chunks chunkSize packedSize src dst s = .error er := by
  unfold packSide
  rw [forLoop, if_pos hc, if_pos (by decide)]
  dsimp only
  rw [h]
  rfl

theorem stride_mod {p : StreamParams} (hp : p.WithSum) (lanes : Nat) : p.packedStride 1 lanes 8 % 32 = 0 := by
  rw [WithSum.stride hp]
  unfold alignTo
  omega

theorem add_mod_packAlign {a b n : Nat} (h : a % packAlign n ≠ 0) (hb : b % 32 = 0) : (a + b) % packAlign n ≠ 0 := by
  have := gcd32_mod (n := 8 * n) hb
  unfold packAlign at *
  rw [Nat.add_mod, this, Nat.add_zero, Nat.mod_mod]
  exact h

/-- **C66**, `Gemm<GemmExecutorPackRHS, Params, km, kn, 8>` on 32-bit ARM: with at least `kn` columns it faults
whenever the scratch memory is not a multiple of `packAlign kn`: before anything is computed. -/
theorem C66_gemm_packRHS_faults {β : Type} {e : Env} (he : e.arch = .arm32) (K : KernelAsm β) {p : GemmParams} {km kn : Nat}
    (ht : TileOk km kn) (hl : p.left.WithSum) (hr : p.right.WithSum) (kr : p.right.count = p.k) (hk : 0 < p.k)
    (hn : kn ≤ p.n) (ha : p.scratch % packAlign kn ≠ 0) (s : Int → BitVec 8) :
    gemm (fun t q => executePackRHS (opsAsm e K p.k p.left p.right p.out) t q s) km kn 8 p = .error .misaligned := by
  have hb := ht.bounds
  rw [C44_dispatch _ hb.1 hb.2.1 (by decide)]
  unfold executePackRHS
  dsimp only
  rw [packSide_fails (er := .misaligned) (Nat.div_pos hn hb.2.1)]
  · rfl
  · unfold packOrSkip
    rw [if_neg (by omega)]
    show packAsm e p.right kn (p.k % 8) _ _ s = _
    rw [← kr]
    exact C66_packing_faults he hr (by omega) hb.2.1 hb.2.2.2 (add_mod_packAlign ha (stride_mod hl km)) s

/-- **C66**, `GemmExecutorPackLHS`: with at least `km` rows, unless the scratch memory is a multiple of `packAlign km`. -/
theorem C66_gemm_packLHS_faults {β : Type} {e : Env} (he : e.arch = .arm32) (K : KernelAsm β) {p : GemmParams} {km kn : Nat}
    (ht : TileOk km kn) (hl : p.left.WithSum) (hr : p.right.WithSum) (kl : p.left.count = p.k) (hk : 0 < p.k)
    (hm : km ≤ p.m) (ha : p.scratch % packAlign km ≠ 0) (s : Int → BitVec 8) :
    gemm (fun t q => executePackLHS (opsAsm e K p.k p.left p.right p.out) t q s) km kn 8 p = .error .misaligned := by
  have hb := ht.bounds
  rw [C44_dispatch _ hb.1 hb.2.1 (by decide)]
  unfold executePackLHS
  dsimp only
  rw [packSide_fails (er := .misaligned) (Nat.div_pos hm hb.1)]
  · rfl
  · unfold packOrSkip
    rw [if_neg (by omega)]
    show packAsm e p.left km (p.k % 8) _ _ s = _
    rw [← kl]
    exact C66_packing_faults he hl (by omega) hb.1 hb.2.2.1 (add_mod_packAlign ha (stride_mod hr kn)) s

/-- **C66**, `GemmExecutorPackRHSCacheFriendly<cacheSize>`, where one task is enough. -/
theorem C66_cache_friendly_faults {β : Type} {e : Env} (he : e.arch = .arm32) (K : KernelAsm β) {p : GemmParams}
    {km kn cacheSize : Nat} (ht : TileOk km kn) (hl : p.left.WithSum) (hr : p.right.WithSum) (kr : p.right.count = p.k)
    (hk : 0 < p.k) (hn : kn ≤ p.n) (ha : p.scratch % packAlign kn ≠ 0)
    (htasks : cacheFriendlyTasksCount cacheSize (p.left.packedStride 1 km 8) (p.right.packedStride 1 kn 8) p.n kn = .ok 1)
    (s : Int → BitVec 8) :
    gemm (fun t q => executePackRHSCacheFriendly cacheSize (opsAsm e K p.k p.left p.right p.out) t q s) km kn 8 p =
      .error .misaligned := by
  have hb := ht.bounds
  have h := C66_gemm_packRHS_faults he K ht hl hr kr hk hn ha s
  rw [C44_dispatch _ hb.1 hb.2.1 (by decide)] at h ⊢
  unfold executePackRHSCacheFriendly
  dsimp only
  rw [htasks]
  exact h

/-- The setting of meta/test_gemm_correctness.cc:75, 355, 419: the kernel of 2 x 4, rows, and scratch memory from
`new std::uint8_t[]`, of which nothing is known but that it is a multiple of 8.  Where it is not a multiple of 32, the
products with four columns or more fault on 32-bit ARM (here for the depth 16). -/
example (f : FloatOps) (mem : Int → BitVec 8) (v : Nat → Vec.VReg) (x : X → Int) (s : Int → BitVec 8)
    (q m n : Nat) (hq : q % 4 ≠ 0) (hn : 4 ≤ n) (hn' : n ≤ 1000) :
    gemm (fun t p => executePackRHSCacheFriendly 262144
        (opsAsm ⟨.arm32, f, mem, fun _ => true, 8 * q, 8 * q + 4145152, v, x⟩ (i32Kernel .arm32) 16
          ⟨.rowMajorWithSum, 16, 16, 3, 0⟩ ⟨.rowMajorWithSum, 16, 16, 5, 0⟩ ⟨.rowMajor, 0, n * 4, 0, 0⟩) t p s)
      2 4 8 ⟨m, n, 16, 0, 0, 0, 8 * q, ⟨.rowMajorWithSum, 16, 16, 3, 0⟩, ⟨.rowMajorWithSum, 16, 16, 5, 0⟩,
        ⟨.rowMajor, 0, n * 4, 0, 0⟩, 4⟩ = .error .misaligned := by
  have htasks : cacheFriendlyTasksCount 262144 (StreamParams.packedStride ⟨.rowMajorWithSum, 16, 16, 3, 0⟩ 1 2 8)
      (StreamParams.packedStride ⟨.rowMajorWithSum, 16, 16, 5, 0⟩ 1 4 8) n 4 = .ok 1 := by
    rw [show StreamParams.packedStride ⟨.rowMajorWithSum, 16, 16, 3, 0⟩ 1 2 8 = 64 by decide,
      show StreamParams.packedStride ⟨.rowMajorWithSum, 16, 16, 5, 0⟩ 1 4 8 = 96 by decide]
    unfold cacheFriendlyTasksCount
    rw [show decide (64 + 96 < 262144) = true by decide]
    dsimp only
    rw [show ((n + 4 - 1) / 4 + (262144 - 64) / 96 - 1) / ((262144 - 64) / 96) = 1 by omega]
    rfl
  have ha : 8 * q % packAlign 4 ≠ 0 := by rw [show packAlign 4 = 32 by decide]; omega
  exact C66_cache_friendly_faults (e := ⟨.arm32, f, mem, fun _ => true, 8 * q, 8 * q + 4145152, v, x⟩)
    (p := ⟨m, n, 16, 0, 0, 0, 8 * q, ⟨.rowMajorWithSum, 16, 16, 3, 0⟩, ⟨.rowMajorWithSum, 16, 16, 5, 0⟩,
      ⟨.rowMajor, 0, n * 4, 0, 0⟩, 4⟩) rfl _ (.inr (.inl ⟨rfl, by decide, by decide⟩)) (.inl rfl) (.inl rfl) rfl
    (show 0 < 16 by decide) hn ha htasks s

end Meta
end Gemmlowp
