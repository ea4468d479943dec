import Verif.KernelFormat
/-!
# internal/block_params.h: cache blocking parameters
-/
namespace Gemmlowp

/-- The tuning knobs of a context, internal/single_thread_gemm.h:45-59.
The float `l2_rhs_factor` only enters through the comparison `l2_rhs_factor == 1.0f`
(`factorIsOne`) and through `static_cast<int>(l2_rhs_factor * q)` (`rhsTerm q`), which is an
arbitrary function here. -/
structure Tuning where
  l1Bytes : Int
  l2Bytes : Int
  rhsTerm : Int → Int
  factorIsOne : Bool

/-- internal/block_params.h:32-43 `BlockParams`. -/
structure BlockParams where
  l1_rows : Nat
  l1_cols : Nat
  l1_depth : Nat
  l2_rows : Nat
  l2_cols : Nat
  l2_depth : Nat
  deriving DecidableEq, Repr

/-- `std::max(1, x)` as a natural number. -/
def max1 (x : Int) : Nat := (max 1 x).toNat

theorem max1_pos (x : Int) : 0 < max1 x := by unfold max1; omega

/-- C `int` division: truncating, undefined for a zero divisor. -/
def cdiv (a b : Int) : M Int := if b = 0 then .error .badOp else .ok (Int.tdiv a b)

/-- internal/block_params.h:56-101 `FindL2BlockSizes`; returns (l2_rows, l2_cols, l2_depth).
`CeilQuotient` never divides by zero here because its divisor is a `std::max(1, _)`. -/
def findL2BlockSizes (k : KernelFormat) (reg rows cols depth numThreads : Nat) (t : Tuning) :
    M (Nat × Nat × Nat) := do
  let q ← cdiv (roundUp k.kRows rows) numThreads
  let perThreadRows := max1 q
  let l2_depth := roundUp reg depth
  let bytesPerDepth ← cdiv t.l2Bytes l2_depth
  let maxCols := max1 (t.rhsTerm bytesPerDepth)
  let minColsBlocks := max 1 (ceilQuotient cols maxCols)
  let l2_cols := roundUp k.kCols (ceilQuotient cols minColsBlocks)
  let l2_rows ←
    if t.factorIsOne then pure (roundUp k.kRows perThreadRows)
    else do
      let q ← cdiv (t.l2Bytes - l2_depth * l2_cols) (numThreads * (l2_depth + 4 * l2_cols))
      let maxRows := max1 q
      let minRowsBlocks := max 1 (ceilQuotient perThreadRows maxRows)
      pure (roundUp k.kRows (ceilQuotient perThreadRows minRowsBlocks))
  pure (l2_rows, l2_cols, l2_depth)

/-- internal/block_params.h:104-142 `FindL1BlockSizes`; returns (l1_rows, l1_cols, l1_depth). -/
def findL1BlockSizes (k : KernelFormat) (reg rows cols depth : Nat) (t : Tuning) :
    M (Nat × Nat × Nat) := do
  assertM (decide (rows % k.kRows = 0))
  assertM (decide (cols % k.kCols = 0))
  assertM (decide (depth % k.kDepth = 0))
  let l1_cols := cols
  let q ← cdiv (t.l1Bytes - 4 * k.kRows * k.kCols) (k.kRows + k.kCols)
  let maxDepth := max1 q
  let minDepthBlocks := max 1 (ceilQuotient depth maxDepth)
  let l1_depth := roundUp reg (ceilQuotient depth minDepthBlocks)
  let q2 ← cdiv t.l1Bytes (l1_depth + 4 * l1_cols)
  let maxRows := max1 q2
  let minRowsBlocks := max 1 (ceilQuotient rows maxRows)
  let l1_rows := roundUp k.kRows (ceilQuotient rows minRowsBlocks)
  pure (l1_rows, l1_cols, l1_depth)

/-- internal/block_params.h:46-53 `Init`. -/
def BlockParams.init (k : KernelFormat) (reg rows cols depth numThreads : Nat) (t : Tuning) :
    M BlockParams := do
  let (l2r, l2c, l2d) ← findL2BlockSizes k reg rows cols depth numThreads t
  let (l1r, l1c, l1d) ← findL1BlockSizes k reg l2r l2c l2d t
  pure { l1_rows := l1r, l1_cols := l1c, l1_depth := l1d,
         l2_rows := l2r, l2_cols := l2c, l2_depth := l2d }

/-- internal/block_params.h:150-160 `SideBlockParams`. -/
structure SideParams where
  l1_width : Nat
  l1_depth : Nat
  l2_width : Nat
  l2_depth : Nat
  deriving DecidableEq, Repr

/-- internal/block_params.h:162 `Side`. -/
inductive Side | lhs | rhs
  deriving DecidableEq, Repr

/-- internal/block_params.h:164-173 `GetSideBlockParams`. -/
def BlockParams.side (b : BlockParams) (s : Side) : SideParams :=
  { l1_width := match s with | .lhs => b.l1_rows | .rhs => b.l1_cols
    l2_width := match s with | .lhs => b.l2_rows | .rhs => b.l2_cols
    l1_depth := b.l1_depth
    l2_depth := b.l2_depth }

/-- What the rest of the library needs from block parameters. -/
structure BlockParams.Good (b : BlockParams) (k : KernelFormat) (reg rows cols depth : Nat) :
    Prop where
  l1_rows_pos : 0 < b.l1_rows
  l1_cols_pos : 0 < b.l1_cols
  l1_depth_pos : 0 < b.l1_depth
  l2_rows_pos : 0 < b.l2_rows
  l2_cols_pos : 0 < b.l2_cols
  l2_depth_eq : b.l2_depth = roundUp reg depth
  l1_rows_dvd : k.kRows ∣ b.l1_rows
  l1_cols_dvd : k.kCols ∣ b.l1_cols
  l1_depth_dvd : reg ∣ b.l1_depth
  l2_rows_dvd : k.kRows ∣ b.l2_rows
  l2_cols_dvd : k.kCols ∣ b.l2_cols
  l1_rows_le : b.l1_rows ≤ b.l2_rows
  l1_cols_le : b.l1_cols ≤ b.l2_cols
  l1_depth_le : b.l1_depth ≤ b.l2_depth
  l2_rows_le : b.l2_rows ≤ roundUp k.kRows rows
  l2_cols_le : b.l2_cols ≤ roundUp k.kCols cols

theorem ceilQuotient_le {a b : Nat} (hb : 0 < b) : ceilQuotient a b ≤ a := by
  unfold ceilQuotient
  rcases Nat.eq_zero_or_pos a with rfl | ha
  · rw [Nat.zero_add, Nat.div_eq_of_lt (by omega)]; exact Nat.le_refl 0
  · apply Nat.le_of_lt_succ
    rw [Nat.div_lt_iff_lt_mul hb, Nat.succ_mul]
    have := Nat.mul_le_mul_left a hb
    omega

theorem roundUp_ceil_le {m a b j : Nat} (hm : 0 < m) (hb : 0 < b) (hd : m ∣ j) (h : a ≤ j) :
    roundUp m (ceilQuotient a b) ≤ j :=
  roundUp_le_of_dvd hm hd (Nat.le_trans (ceilQuotient_le hb) h)

theorem max1_tdiv_le {a : Nat} {b : Nat} (ha : 0 < a) : max1 (Int.tdiv a b) ≤ a := by
  unfold max1
  have : Int.tdiv a b ≤ a := by
    rw [Int.tdiv_eq_ediv_of_nonneg (by omega)]
    exact Int.ediv_le_self _ (by omega)
  omega

theorem SideFormat.WF.kw_pos {f : SideFormat} {reg : Nat} (h : f.WF reg) : 0 < f.kw :=
  Nat.mul_pos h.cw_pos h.cells_pos

theorem cdiv_ok {a b : Int} (h : b ≠ 0) : cdiv a b = .ok (Int.tdiv a b) := by
  simp [cdiv, h]

theorem ceilQuotient_max1_pos {a b : Nat} (ha : 0 < a) : 0 < ceilQuotient a (max 1 b) :=
  ceilQuotient_pos ha (by omega)

/-- The parameters are computed without fault and are usable, whatever the tuning. -/
theorem init_good {k : KernelFormat} {reg rows cols depth nt : Nat} (hk : k.WF reg)
    (hr : 0 < rows) (hc : 0 < cols) (hd : 0 < depth) (hnt : 0 < nt) (t : Tuning) :
    ∃ b, BlockParams.init k reg rows cols depth nt t = .ok b ∧ b.Good k reg rows cols depth := by
  have hkr : 0 < k.kRows := hk.lhs.kw_pos
  have hkc : 0 < k.kCols := hk.rhs.kw_pos
  have hreg : 0 < reg := hk.lhs.reg_pos
  have hl2d : 0 < roundUp reg depth := roundUp_pos hreg hd
  have L2 : ∃ l2r l2c, findL2BlockSizes k reg rows cols depth nt t =
      .ok (l2r, l2c, roundUp reg depth) ∧ 0 < l2r ∧ 0 < l2c ∧ k.kRows ∣ l2r ∧ k.kCols ∣ l2c ∧
      l2r ≤ roundUp k.kRows rows ∧ l2c ≤ roundUp k.kCols cols := by
    unfold findL2BlockSizes
    rw [cdiv_ok (by omega), ok_bind]; dsimp only
    rw [cdiv_ok (by omega), ok_bind]
    have hc2 := roundUp_pos hkc (ceilQuotient_max1_pos
      (b := ceilQuotient cols (max1 (t.rhsTerm (t.l2Bytes.tdiv (roundUp reg depth : Nat))))) hc)
    have hper := max1_tdiv_le (b := nt) (roundUp_pos hkr hr)
    have hcle : ∀ x, roundUp k.kCols (ceilQuotient cols (max 1 x)) ≤ roundUp k.kCols cols :=
      fun x => roundUp_ceil_le hkc (by omega) (roundUp_dvd _ _) (le_roundUp hkc _)
    cases t.factorIsOne
    · simp only [Bool.false_eq_true, if_false]
      rw [cdiv_ok (by
        intro h0
        rw [Int.mul_eq_zero] at h0
        omega)]
      simp only [ok_bind, pure_ok]
      refine ⟨_, _, rfl, ?_, hc2, roundUp_dvd _ _, roundUp_dvd _ _, ?_, hcle _⟩
      · exact roundUp_pos hkr (ceilQuotient_max1_pos (max1_pos _))
      · exact roundUp_ceil_le hkr (by omega) (roundUp_dvd _ _) hper
    · simp only [if_true, pure_ok, ok_bind]
      exact ⟨_, _, rfl, roundUp_pos hkr (max1_pos _), hc2, roundUp_dvd _ _, roundUp_dvd _ _,
        roundUp_le_of_dvd hkr (roundUp_dvd _ _) hper, hcle _⟩
  obtain ⟨l2r, l2c, e2, hl2r, hl2c, hdr, hdc, hrle, hcle⟩ := L2
  have hcd : k.kDepth ∣ roundUp reg depth := Nat.dvd_trans hk.lhs.cd_dvd (roundUp_dvd _ _)
  have hl1d : 0 < roundUp reg (ceilQuotient (roundUp reg depth) (max 1 (ceilQuotient
      (roundUp reg depth) (max1 ((t.l1Bytes - 4 * k.kRows * k.kCols).tdiv (k.kRows + k.kCols)))))) :=
    roundUp_pos hreg (ceilQuotient_max1_pos hl2d)
  have L1 : ∃ l1r l1d, findL1BlockSizes k reg l2r l2c (roundUp reg depth) t =
      .ok (l1r, l2c, l1d) ∧ 0 < l1r ∧ 0 < l1d ∧ k.kRows ∣ l1r ∧ reg ∣ l1d ∧
      l1r ≤ l2r ∧ l1d ≤ roundUp reg depth := by
    unfold findL1BlockSizes
    rw [decide_eq_true (Nat.mod_eq_zero_of_dvd hdr), decide_eq_true (Nat.mod_eq_zero_of_dvd hdc),
      decide_eq_true (Nat.mod_eq_zero_of_dvd hcd)]
    simp only [assertM_true, ok_bind]
    rw [cdiv_ok (by omega), ok_bind, cdiv_ok (by omega), ok_bind]
    refine ⟨_, _, rfl, ?_, hl1d, roundUp_dvd _ _, roundUp_dvd _ _, ?_, ?_⟩
    · exact roundUp_pos hkr (ceilQuotient_max1_pos hl2r)
    · exact roundUp_ceil_le hkr (by omega) hdr (Nat.le_refl _)
    · exact roundUp_ceil_le hreg (by omega) (roundUp_dvd _ _) (Nat.le_refl _)
  obtain ⟨l1r, l1d, e1, hl1r, hl1d', hd1, hd2, hle1, hle2⟩ := L1
  refine ⟨{ l1_rows := l1r, l1_cols := l2c, l1_depth := l1d,
            l2_rows := l2r, l2_cols := l2c, l2_depth := roundUp reg depth }, ?_, ?_⟩
  · unfold BlockParams.init
    rw [e2]; simp only [ok_bind]; rw [e1]; simp only [ok_bind, pure_ok]
  · exact { l1_rows_pos := hl1r, l1_cols_pos := hl2c, l1_depth_pos := hl1d', l2_rows_pos := hl2r,
            l2_cols_pos := hl2c, l2_depth_eq := rfl, l1_rows_dvd := hd1, l1_cols_dvd := hdc,
            l1_depth_dvd := hd2, l2_rows_dvd := hdr, l2_cols_dvd := hdc
            l1_rows_le := hle1, l1_cols_le := Nat.le_refl _, l1_depth_le := hle2
            l2_rows_le := hrle, l2_cols_le := hcle }

end Gemmlowp
