import Verif.PropsGemm
/-!
# Properties C07, C10, C12, C13, C22: splitting, views, cells, block sizes, thread count
-/
namespace Gemmlowp

/-! ## C07 -/

theorem splitList_range {kRows rows tc : Nat} (hk : 0 < kRows) (n : Nat) :
    ((splitList kRows rows tc n).flatMap fun x => List.range' x.1 x.2) =
      List.range (rowBound kRows rows tc n) := by
  induction n with
  | zero => rw [rowBound_zero hk]; rfl
  | succ n ih =>
    have e : splitList kRows rows tc (n + 1) = splitList kRows rows tc n ++
        [(rowBound kRows rows tc n, rowBound kRows rows tc (n + 1) - rowBound kRows rows tc n)] := by
      simp [splitList, List.range_succ]
    have hm := rowBound_mono (kRows := kRows) (rows := rows) (tc := tc) hk (Nat.le_succ n)
    rw [e, List.flatMap_append, ih]
    simp only [List.flatMap_cons, List.flatMap_nil, List.append_nil]
    have h := List.range'_append_1 (s := 0) (m := rowBound kRows rows tc n)
      (n := rowBound kRows rows tc (n + 1) - rowBound kRows rows tc n)
    rw [Nat.zero_add, ← List.range_eq_range', Nat.add_sub_cancel' hm, ← List.range_eq_range'] at h
    exact h

/-- **C07.**  The rows given to the tasks, one task after another, are all the rows in order: the
ranges are consecutive, disjoint and cover the matrix.  Each starts at a multiple of the row tile
of the kernel (or at the end of the matrix, if it is empty). -/
theorem C07_row_split {kRows rows tc : Nat} (hk : 0 < kRows) (htc : 0 < tc)
    (h1 : rows * tc ≤ 2147483647) (h2 : rows + kRows ≤ 2147483647) :
    ∃ l, splitRows kRows rows tc = .ok l ∧ l.length = tc ∧
      (l.flatMap fun x => List.range' x.1 x.2) = List.range rows ∧
      ∀ x ∈ l, (kRows ∣ x.1 ∨ x.1 = rows) ∧ (kRows ∣ x.1 + x.2 ∨ x.1 + x.2 = rows) ∧ x.1 + x.2 ≤ rows := by
  refine ⟨_, splitRows_ok hk htc h1 h2, by simp [splitList], ?_, ?_⟩
  · rw [splitList_range hk, rowBound_full hk htc]
  · intro x hx
    obtain ⟨n, -, rfl⟩ := List.mem_map.1 hx
    have hm : rowBound kRows rows tc n ≤ rowBound kRows rows tc (n + 1) := rowBound_mono hk (Nat.le_succ n)
    have hb : ∀ n, (kRows ∣ rowBound kRows rows tc n ∨ rowBound kRows rows tc n = rows) ∧
        rowBound kRows rows tc n ≤ rows := by
      intro n
      unfold rowBound
      by_cases h : rows ≤ roundUp kRows (rows * n / tc)
      · exact ⟨.inr (Nat.min_eq_left h), Nat.min_le_left _ _⟩
      · rw [Nat.min_eq_right (by omega)]
        exact ⟨.inl (roundUp_dvd _ _), by omega⟩
    dsimp only
    rw [show rowBound kRows rows tc n + (rowBound kRows rows tc (n + 1) - rowBound kRows rows tc n) =
      rowBound kRows rows tc (n + 1) by omega]
    exact ⟨(hb n).1, (hb (n + 1)).1, (hb (n + 1)).2⟩

/-- 100 rows, row tile 12, 4 tasks: 36, 24, 24 and 16 rows. -/
example : splitRows 12 100 4 = .ok [(0, 36), (36, 24), (60, 24), (84, 16)] := by
  rw [splitRows_ok (by decide) (by decide) (by decide) (by decide)]; decide

/-! ## C10 -/

/-- **C10**, blocks: entry `(i, j)` of a block is entry `(r + i, c + j)` of the parent. -/
theorem C10_block_addr {m b : MatrixMap} {r c br bc : Nat} (h : m.block r c br bc = .ok b) (i j : Nat) :
    b.rows = br ∧ b.cols = bc ∧ r + br ≤ m.rows ∧ c + bc ≤ m.cols ∧
      b.addr i j = m.addr (r + i) (c + j) := by
  by_cases h1 : r + br ≤ m.rows
  · by_cases h2 : c + bc ≤ m.cols
    · rw [MatrixMap.block_ok h1 h2] at h
      injection h with h
      subst h
      refine ⟨rfl, rfl, h1, h2, ?_⟩
      unfold MatrixMap.addr MatrixMap.rowsStride MatrixMap.colsStride
      cases m.order <;> simp only [Nat.add_mul] <;> omega
    · simp [MatrixMap.block, h1, h2, assertM, ok_bind] at h
  · simp [MatrixMap.block, h1, assertM, error_bind] at h

/-- **C10**, a block exists exactly when it lies within the parent. -/
theorem C10_block_exists {m : MatrixMap} {r c br bc : Nat} :
    (∃ b, m.block r c br bc = .ok b) ↔ r + br ≤ m.rows ∧ c + bc ≤ m.cols := by
  constructor
  · rintro ⟨b, h⟩
    have := C10_block_addr h 0 0
    exact ⟨this.2.2.1, this.2.2.2.1⟩
  · rintro ⟨h1, h2⟩
    exact ⟨_, MatrixMap.block_ok h1 h2⟩

/-- **C10**, a block of a block is a block. -/
theorem C10_nested_blocks {m b b' : MatrixMap} {r c br bc r' c' br' bc' : Nat}
    (h : m.block r c br bc = .ok b) (h' : b.block r' c' br' bc' = .ok b') :
    m.block (r + r') (c + c') br' bc' = .ok b' := by
  obtain ⟨e1, e2, e3, e4, -⟩ := C10_block_addr h 0 0
  obtain ⟨-, -, e7, e8, -⟩ := C10_block_addr h' 0 0
  have ha := (C10_block_addr h r' c').2.2.2.2
  rw [MatrixMap.block_ok (by omega) (by omega)]
  rw [MatrixMap.block_ok (by omega) (by omega)] at h'
  rw [MatrixMap.block_ok (by omega) (by omega)] at h
  injection h with h
  injection h' with h'
  rw [← h', ha, ← h]

/-- **C10**, transposing swaps the indices and the sizes, and twice is nothing. -/
theorem C10_transpose (m : MatrixMap) (r c : Nat) :
    m.transpose.addr c r = m.addr r c ∧ m.transpose.rows = m.cols ∧ m.transpose.cols = m.rows ∧
      m.transpose.transpose = m ∧ (m.StrideOk → m.transpose.StrideOk) := by
  refine ⟨m.transpose_addr r c, rfl, rfl, m.transpose_transpose, fun h => ?_⟩
  unfold MatrixMap.StrideOk at h ⊢
  unfold MatrixMap.transpose
  cases ho : m.order <;> simp only [ho] at h ⊢ <;> exact h

/-- **C10**, distinct entries have distinct addresses; a block keeps that. -/
theorem C10_distinct {m : MatrixMap} (hs : m.StrideOk) {r c r' c' : Nat}
    (hr : r < m.rows) (hc : c < m.cols) (hr' : r' < m.rows) (hc' : c' < m.cols)
    (h : m.addr r c = m.addr r' c') : r = r' ∧ c = c' := MatrixMap.addr_inj hs hr hc hr' hc' h

/-- **C10**, the addresses of a map lie between its base and the end of its last line. -/
theorem C10_addr_bounds {m : MatrixMap} (hs : m.StrideOk) {r c : Nat} (hr : r < m.rows)
    (hc : c < m.cols) : m.base ≤ m.addr r c ∧
      m.addr r c < m.base + m.stride * (match m.order with | .colMajor => m.cols | .rowMajor => m.rows) := by
  unfold MatrixMap.StrideOk at hs
  unfold MatrixMap.addr MatrixMap.rowsStride MatrixMap.colsStride
  cases ho : m.order <;> simp only [ho] at hs ⊢
  · have := mixed_lt (a := r) (b := c) (m := m.stride) (n := m.cols) (by omega) hc
    omega
  · have := mixed_lt (a := c) (b := r) (m := m.stride) (n := m.rows) (by omega) hr
    omega

/-- **C10**, a map constructed without stride is contiguous: distinct entries have distinct
addresses and all addresses lie within `rows * cols` elements. -/
theorem C10_contiguous (o : MapOrder) (base rows cols : Nat) :
    (MatrixMap.mk3 o base rows cols).StrideOk ∧
    ∀ r c, r < rows → c < cols → base ≤ (MatrixMap.mk3 o base rows cols).addr r c ∧
      (MatrixMap.mk3 o base rows cols).addr r c < base + rows * cols := by
  have hs : (MatrixMap.mk3 o base rows cols).StrideOk := by
    cases o <;> exact Nat.le_refl _
  refine ⟨hs, fun r c hr hc => ?_⟩
  have h := C10_addr_bounds hs (r := r) (c := c) hr hc
  refine ⟨h.1, Nat.lt_of_lt_of_eq h.2 ?_⟩
  cases o
  · rfl
  · show base + cols * rows = _; rw [Nat.mul_comm]

/-- **C10** for vectors: element `i` of a block is element `start + i`; a block of a block is a
block; transposing keeps the elements. -/
theorem C10_vector_block {v w : OffsetVec} {s l : Nat} (h : v.block s l = .ok w) :
    w.size = l ∧ s + l ≤ v.size ∧ ∀ i, w.read i = v.read (s + i) := by
  cases v with
  | map sh d b n =>
    by_cases h1 : s + l ≤ n
    · simp [OffsetVec.block, h1, pure_ok, ok_bind] at h
      subst h
      refine ⟨rfl, h1, fun i => ?_⟩
      simp only [OffsetVec.read, Nat.add_assoc]
    · simp [OffsetVec.block, h1, assertM] at h
  | dup sh x n =>
    by_cases h1 : s + l ≤ n
    · simp [OffsetVec.block, h1, pure_ok, ok_bind] at h
      subst h
      exact ⟨rfl, h1, fun i => rfl⟩
    · simp [OffsetVec.block, h1, assertM] at h

theorem C10_vector_nested {v w x : OffsetVec} {s l s' l' : Nat} (h : v.block s l = .ok w)
    (h' : w.block s' l' = .ok x) : v.block (s + s') l' = .ok x := by
  obtain ⟨e1, e2, -⟩ := C10_vector_block h
  obtain ⟨-, e4, -⟩ := C10_vector_block h'
  rw [e1] at e4
  cases v with
  | map sh d b n =>
    simp only [OffsetVec.size] at e2
    simp [OffsetVec.block, e2, pure_ok, ok_bind] at h
    subst h
    simp [OffsetVec.block, e4, pure_ok, ok_bind] at h'
    subst h'
    simp only [OffsetVec.block, decide_eq_true (show s + (s' + l') ≤ n by omega), assertM_true, ok_bind, pure_ok,
      Nat.add_assoc]
  | dup sh y n =>
    simp only [OffsetVec.size] at e2
    simp [OffsetVec.block, e2, pure_ok, ok_bind] at h
    subst h
    simp [OffsetVec.block, e4, pure_ok, ok_bind] at h'
    subst h'
    simp [OffsetVec.block, show s + s' + l' ≤ n by omega, pure_ok, ok_bind]

theorem C10_vector_transpose (v : OffsetVec) (i : Nat) :
    v.transpose.read i = v.read i ∧ v.transpose.size = v.size := by
  cases v <;> exact ⟨rfl, rfl⟩

/-- A 3 × 2 block at (1, 2) of a 5 × 6 row-major map with stride 7, and a block of it. -/
example :
    let m : MatrixMap := { base := 3, rows := 5, cols := 6, stride := 7, order := .rowMajor }
    m.StrideOk ∧ (m.block 1 2 3 2 >>= fun b => b.block 1 1 2 1) = m.block 2 3 2 1 ∧
    m.addr 2 3 = 20 := by decide

/-! ## C12 -/

/-- **C12.**  In a packed cell, whatever its order, each coefficient has its own position. -/
theorem C12_cell_layout {f : SideFormat} {reg : Nat} (h : f.WF reg) :
    ∃ pos : Nat → Nat → Nat, (∀ w d, w < f.cw → d < f.cd → offsetIntoCell f w d = .ok (pos w d)) ∧
      (∀ w d, w < f.cw → d < f.cd → pos w d < f.cw * f.cd) ∧
      (∀ w d w' d', w < f.cw → d < f.cd → w' < f.cw → d' < f.cd → pos w d = pos w' d' →
        w = w' ∧ d = d') ∧
      ∀ n, n < f.cw * f.cd → ∃ w d, w < f.cw ∧ d < f.cd ∧ pos w d = n := by
  refine ⟨cellOff f, fun w d _ _ => offsetIntoCell_ok h w d, fun w d hw hd => cellOff_lt h hw hd,
    fun w d w' d' a b c d => cellOff_inj h a b c d, ?_⟩
  -- an injection between finite sets of the same size is onto
  let g : Fin f.cw × Fin f.cd → Fin (f.cw * f.cd) := fun p =>
    ⟨cellOff f p.1 p.2, cellOff_lt h p.1.2 p.2.2⟩
  have hinj : Function.Injective g := by
    rintro ⟨w, d⟩ ⟨w', d'⟩ he
    have he' := congrArg Fin.val he
    obtain ⟨e1, e2⟩ := cellOff_inj h w.2 d.2 w'.2 d'.2 he'
    exact Prod.ext (Fin.ext e1) (Fin.ext e2)
  have hsurj := ((Fintype.bijective_iff_injective_and_card g).2 ⟨hinj, by simp⟩).2
  intro n hn
  obtain ⟨⟨w, d⟩, hp⟩ := hsurj ⟨n, hn⟩
  exact ⟨w, d, w.2, d.2, congrArg Fin.val hp⟩

/-- The 8 × 8 diagonal cells of the SSE/MSA style kernels meet the hypothesis. -/
example : ({ cw := 8, cd := 8, order := .diagonal, cells := 1, scalar := .uint8 } : SideFormat).WF 16 :=
  ⟨by decide, by decide, by decide, by decide, by decide, by decide⟩

/-! ## C13 -/

/-- **C13.**  For any positive sizes, any number of threads, any cache sizes and factor. -/
theorem C13_block_params {k : KernelFormat} {reg rows cols depth nt : Nat} (hk : k.WF reg)
    (hr : 0 < rows) (hc : 0 < cols) (hd : 0 < depth) (hnt : 0 < nt) (t : Tuning) :
    ∃ b, BlockParams.init k reg rows cols depth nt t = .ok b ∧
      (0 < b.l1_rows ∧ 0 < b.l1_cols ∧ 0 < b.l1_depth) ∧
      (b.l1_rows ≤ b.l2_rows ∧ b.l1_cols ≤ b.l2_cols ∧ b.l1_depth ≤ b.l2_depth) ∧
      (k.kRows ∣ b.l1_rows ∧ k.kCols ∣ b.l1_cols ∧ reg ∣ b.l1_depth) ∧
      (k.kRows ∣ b.l2_rows ∧ k.kCols ∣ b.l2_cols ∧ reg ∣ b.l2_depth) ∧
      (b.l2_rows < rows + k.kRows ∧ b.l2_cols < cols + k.kCols) ∧
      depth ≤ b.l2_depth ∧ b.l2_depth < depth + reg := by
  obtain ⟨b, h1, g⟩ := init_good hk hr hc hd hnt t
  have h2 := roundUp_lt (m := k.kRows) hk.lhs.kw_pos rows
  have h3 := roundUp_lt (m := k.kCols) hk.rhs.kw_pos cols
  have h4 := roundUp_lt (m := reg) hk.lhs.reg_pos depth
  have h5 := le_roundUp (m := reg) hk.lhs.reg_pos depth
  have h6 := g.l2_rows_le
  have h7 := g.l2_cols_le
  refine ⟨b, h1, ⟨g.l1_rows_pos, g.l1_cols_pos, g.l1_depth_pos⟩,
    ⟨g.l1_rows_le, g.l1_cols_le, g.l1_depth_le⟩, ⟨g.l1_rows_dvd, g.l1_cols_dvd, g.l1_depth_dvd⟩,
    ⟨g.l2_rows_dvd, g.l2_cols_dvd, by rw [g.l2_depth_eq]; exact roundUp_dvd _ _⟩, ⟨by omega, by omega⟩, ?_, ?_⟩
  · rw [g.l2_depth_eq]; exact h5
  · rw [g.l2_depth_eq]; exact h4

/-- A 300 × 200 product of depth 1000 with the default budgets is cut in both dimensions. -/
example : BlockParams.init sampleFormat 16 300 200 1000 2 sampleEnv.tun =
    .ok { l1_rows := 12, l1_cols := 200, l1_depth := 1008, l2_rows := 52, l2_cols := 200, l2_depth := 1008 } := by
  decide

/-! ## C22 -/

theorem intOfU64_le (x : Nat) : intOfU64 x ≤ x := by
  unfold intOfU64
  rw [BitVec.toInt_eq_toNat_cond]
  have h1 : (BitVec.ofNat 32 x).toNat ≤ x := by
    rw [BitVec.toNat_ofNat]; exact Nat.mod_le _ _
  split <;> omega

/-- **C22.**  The number of threads used is at least 1, at most the resolved maximum, at most
`⌈rows / tile⌉`, and each of several threads has at least 65536 multiply-adds to do. -/
theorem C22_thread_count {kRows : Nat} {hw mt : Int} {rows cols depth : Nat} (hkr : 0 < kRows)
    (hr : 0 < rows) (hk : (rows : Int) + max (kRows : Int) 16 ≤ 2147483647)
    (hm : 0 < getHardwareConcurrency hw mt) :
    ∃ t : Nat, howManyThreads kRows hw mt rows cols depth = .ok t ∧ 1 ≤ t ∧
      (t : Int) ≤ (if mt = 0 then hw else mt) ∧
      t ≤ (rows + kRows - 1) / kRows ∧ t ≤ (rows + 15) / 16 ∧
      (t = 1 ∨ t * 65536 ≤ rows * cols * depth) := by
  have hq1 : ∀ a : Nat, 0 < a → 1 ≤ (rows + a - 1) / a := by
    intro a ha
    rw [Nat.le_div_iff_mul_le ha]; omega
  unfold howManyThreads
  change 0 < (if mt = 0 then hw else mt) at hm
  by_cases h1 : mt = 1
  · rw [if_pos h1]
    have := hq1 16 (by decide)
    exact ⟨1, rfl, by omega, by omega, hq1 _ hkr, by omega, .inl rfl⟩
  · rw [if_neg h1]
    dsimp only [getHardwareConcurrency]
    generalize (if mt = 0 then hw else mt) = mc at hm ⊢
    have hmin : ∃ m : Nat, (if kRows > 16 then (kRows : Int) else 16) = (m : Int) ∧ 16 ≤ m ∧ kRows ≤ m ∧
        (m : Int) ≤ max (kRows : Int) 16 := by
      split
      · exact ⟨kRows, rfl, by omega, by omega, by omega⟩
      · exact ⟨16, rfl, by omega, by omega, by omega⟩
    obtain ⟨m, e, hm1, hm3, hm2⟩ := hmin
    rw [e]
    unfold ceilQuotientI
    rw [cint_ok (show InI32 ((rows : Int) + m) by unfold InI32; omega), ok_bind,
      cint_ok (show InI32 ((rows : Int) + m - 1) by unfold InI32; omega), ok_bind, cdiv_ok (by omega),
      ok_bind]
    have hqe : ((rows : Int) + m - 1).tdiv m = (((rows + m - 1) / m : Nat) : Int) := by
      rw [Int.tdiv_eq_ediv_of_nonneg (by omega)]
      rw [show (rows : Int) + m - 1 = ((rows + m - 1 : Nat) : Int) by omega]
      rfl
    rw [hqe]
    have hq0 := hq1 m (by omega)
    have hle : ∀ a, 0 < a → a ≤ m → (rows + m - 1) / m ≤ (rows + a - 1) / a := by
      intro a ha ham
      rw [Nat.le_div_iff_mul_le ha]
      have h2 := Nat.div_mul_le_self (rows + m - 1) m
      -- q * a ≤ rows + a - 1 because (q - 1) * a ≤ (q - 1) * m ≤ rows - 1
      generalize (rows + m - 1) / m = q at hq0 h2 ⊢
      obtain ⟨q', rfl⟩ : ∃ q', q = q' + 1 := ⟨q - 1, by omega⟩
      have h3 := Nat.mul_le_mul_left q' ham
      rw [Nat.add_mul] at h2 ⊢
      omega
    have hl1 := hle kRows hkr hm3
    have hl2 := hle 16 (by decide) hm1
    generalize (rows + m - 1) / m = q at hq0 hl1 hl2 ⊢
    have fin : ∀ t : Int, 0 < t → t ≤ mc → t ≤ q → (t = 1 ∨ t * 65536 ≤ ((rows * cols * depth : Nat) : Int)) →
        ∃ n : Nat, (do assertM (decide (0 < t ∧ t ≤ mc)); pure t : M Int) = .ok (n : Int) ∧ 1 ≤ n ∧
          (n : Int) ≤ mc ∧ n ≤ (rows + kRows - 1) / kRows ∧ n ≤ (rows + 15) / 16 ∧
          (n = 1 ∨ n * 65536 ≤ rows * cols * depth) := by
      intro t a1 a2 a3 a4
      rw [decide_eq_true ⟨a1, a2⟩]
      refine ⟨t.toNat, ?_, by omega, by omega, by omega, by omega, by omega⟩
      rw [show ((t.toNat : Nat) : Int) = t by omega]; rfl
    have hcub : ∀ x : Nat, x = ((((rows : Int) % 2 ^ 64).toNat * ((cols : Int) % 2 ^ 64).toNat *
        ((depth : Int) % 2 ^ 64).toNat) % 2 ^ 64) → x ≤ rows * cols * depth := by
      intro x hx
      have hmod : ∀ y : Nat, ((y : Int) % 2 ^ 64).toNat ≤ y := by intro y; omega
      rw [hx]
      exact Nat.le_trans (Nat.mod_le _ _)
        (Nat.mul_le_mul (Nat.mul_le_mul (hmod _) (hmod _)) (hmod _))
    generalize hx : ((((rows : Int) % 2 ^ 64).toNat * ((cols : Int) % 2 ^ 64).toNat *
        ((depth : Int) % 2 ^ 64).toNat) % 2 ^ 64) = x
    have hxle := hcub x hx.symm
    have hi := intOfU64_le (x / 65536)
    by_cases h2 : min mc (q : Int) > 1
    · rw [if_pos h2]
      by_cases h3 : min (min mc (q : Int)) (intOfU64 (x / 65536)) < 1
      · rw [if_pos h3]
        exact fin 1 (by omega) (by omega) (by omega) (.inl rfl)
      · rw [if_neg h3]
        exact fin _ (by omega) (by omega) (by omega) (.inr (by omega))
    · rw [if_neg h2]
      exact fin _ (by omega) (by omega) (by omega) (.inl (by omega))

/-- 1000 rows, tile 12, at most 8 threads: 8 threads for a large product, 3 for one of 200000
multiply-adds. -/
example : howManyThreads 12 4 8 1000 100 100 = .ok 8 ∧ howManyThreads 12 4 8 1000 20 10 = .ok 3 := by
  decide

end Gemmlowp
