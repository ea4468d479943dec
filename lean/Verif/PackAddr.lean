import Verif.Pack
/-!
# Where packed coefficients live

Helper definitions and lemmas (not part of the model): the address of coefficient `(w, d)` in a
packed block, its range, and disjointness of cells.
-/
namespace Gemmlowp

/-- Conditions on the side parameters used by the address computation. -/
structure SideParams.Ok (p : SideParams) (f : SideFormat) (reg : Nat) : Prop where
  wf : f.WF reg
  l1w_pos : 0 < p.l1_width
  l1d_pos : 0 < p.l1_depth
  l1w_dvd : f.kw ∣ p.l1_width
  l1d_dvd : reg ∣ p.l1_depth
  l2w_dvd : f.kw ∣ p.l2_width
  l2d_dvd : reg ∣ p.l2_depth

/-- Length of the run containing depth block number `a`. -/
def runLen (p : SideParams) (a : Nat) : Nat := min p.l1_depth (p.l2_depth - p.l1_depth * a)

/-- Address of the first byte of the cell containing `(w, d)`. -/
def cellAddr (p : SideParams) (f : SideFormat) (w d : Nat) : Nat :=
  p.l2_width * (p.l1_depth * (d / p.l1_depth)) + f.kw * (w / f.kw) * runLen p (d / p.l1_depth)
    + (d % p.l1_depth / f.cd * f.cells + w % f.kw / f.cw) * f.cellSize

/-- Address of coefficient `(w, d)`. -/
def packAddr (p : SideParams) (f : SideFormat) (w d : Nat) : Nat :=
  cellAddr p f w d + cellOff f (w % f.cw) (d % f.cd)

section
variable {p : SideParams} {f : SideFormat} {reg : Nat}

theorem runLen_dvd (h : p.Ok f reg) (a : Nat) : f.cd ∣ runLen p a := by
  have h1 : f.cd ∣ p.l1_depth := Nat.dvd_trans h.wf.cd_dvd h.l1d_dvd
  have h2 : f.cd ∣ p.l2_depth := Nat.dvd_trans h.wf.cd_dvd h.l2d_dvd
  unfold runLen
  rcases Nat.le_total p.l1_depth (p.l2_depth - p.l1_depth * a) with h' | h'
  · rw [Nat.min_eq_left h']; exact h1
  · rw [Nat.min_eq_right h']
    exact Nat.dvd_sub h2 (Nat.dvd_trans h1 (Nat.dvd_mul_right _ _))

theorem mod_lt_runLen (h : p.Ok f reg) {d : Nat} (hd : d < p.l2_depth) :
    d % p.l1_depth < runLen p (d / p.l1_depth) := by
  unfold runLen
  have h1 := Nat.mod_lt d h.l1d_pos
  have h2 := Nat.div_add_mod d p.l1_depth
  omega

/-- The cells of a run fit in the run. -/
theorem cell_in_run (h : p.Ok f reg) {w d : Nat} (hd : d < p.l2_depth) :
    (d % p.l1_depth / f.cd * f.cells + w % f.kw / f.cw) * f.cellSize + f.cellSize
      ≤ f.kw * runLen p (d / p.l1_depth) := by
  obtain ⟨q, hq⟩ := runLen_dvd h (d / p.l1_depth)
  have h1 := mod_lt_runLen h hd
  have h2 : d % p.l1_depth / f.cd < q := by
    rw [Nat.div_lt_iff_lt_mul h.wf.cd_pos, Nat.mul_comm, ← hq]; exact h1
  have h3 : w % f.kw / f.cw < f.cells := by
    rw [Nat.div_lt_iff_lt_mul h.wf.cw_pos, Nat.mul_comm]
    exact Nat.mod_lt _ h.wf.kw_pos
  have h4 := mixed_lt h3 h2
  rw [hq]
  have e : f.kw * (f.cd * q) = f.cells * q * f.cellSize := by
    unfold SideFormat.kw SideFormat.cellSize
    simp [Nat.mul_left_comm, Nat.mul_comm]
  rw [e]
  have : (d % p.l1_depth / f.cd * f.cells + w % f.kw / f.cw + 1) * f.cellSize
      ≤ f.cells * q * f.cellSize := Nat.mul_le_mul_right _ (by omega)
  rw [Nat.add_mul, Nat.one_mul] at this
  exact this

/-- A tile of width `kw` starting below `l2_width` fits. -/
theorem kw_mul_div_le (h : p.Ok f reg) {w : Nat} (hw : w < p.l2_width) :
    f.kw * (w / f.kw) + f.kw ≤ p.l2_width := by
  obtain ⟨q, hq⟩ := h.l2w_dvd
  have : w / f.kw < q := by
    rw [Nat.div_lt_iff_lt_mul h.wf.kw_pos, Nat.mul_comm, ← hq]; exact hw
  have := Nat.mul_le_mul_left f.kw this
  rw [Nat.succ_eq_add_one, Nat.mul_add] at this
  omega

theorem runLen_le (p : SideParams) (a : Nat) : runLen p a ≤ p.l1_depth := by
  unfold runLen; omega

theorem cell_in_tile (h : p.Ok f reg) {w d : Nat} (hw : w < p.l2_width) (hd : d < p.l2_depth) :
    cellAddr p f w d + f.cellSize ≤
      p.l2_width * (p.l1_depth * (d / p.l1_depth) + runLen p (d / p.l1_depth)) := by
  have h1 := cell_in_run (w := w) h hd
  have h2 := kw_mul_div_le h hw
  have h3 := Nat.mul_le_mul_right (runLen p (d / p.l1_depth)) h2
  rw [Nat.add_mul] at h3
  unfold cellAddr
  rw [Nat.mul_add]
  omega

theorem run_end_le (h : p.Ok f reg) {d : Nat} (hd : d < p.l2_depth) :
    p.l1_depth * (d / p.l1_depth) + runLen p (d / p.l1_depth) ≤ p.l2_depth := by
  unfold runLen
  have h2 := Nat.div_add_mod d p.l1_depth
  omega

theorem cellAddr_lt (h : p.Ok f reg) {w d : Nat} (hw : w < p.l2_width) (hd : d < p.l2_depth) :
    cellAddr p f w d + f.cellSize ≤ p.l2_width * p.l2_depth :=
  Nat.le_trans (cell_in_tile h hw hd) (Nat.mul_le_mul_left _ (run_end_le h hd))

theorem packAddr_lt (h : p.Ok f reg) {w d : Nat} (hw : w < p.l2_width) (hd : d < p.l2_depth) :
    packAddr p f w d < p.l2_width * p.l2_depth := by
  have h1 := cellAddr_lt h hw hd
  have h2 := cellOff_lt h.wf (Nat.mod_lt w h.wf.cw_pos) (Nat.mod_lt d h.wf.cd_pos)
  unfold packAddr; omega

theorem cw_dvd_kw (f : SideFormat) : f.cw ∣ f.kw := ⟨f.cells, rfl⟩

theorem div_split (a b n : Nat) : a / (b * n) * n + a % (b * n) / b = a / b := by
  rw [Nat.mod_mul_right_div_self, ← Nat.div_div_eq_div_mul, Nat.mul_comm]
  exact Nat.div_add_mod _ _

/-- Cells containing different `(w / cw, d / cd)` do not overlap. -/
theorem cells_disjoint (h : p.Ok f reg) {w d w' d' : Nat}
    (hw : w < p.l2_width) (hd : d < p.l2_depth) (hw' : w' < p.l2_width) (hd' : d' < p.l2_depth)
    (hne : ¬ (w / f.cw = w' / f.cw ∧ d / f.cd = d' / f.cd)) :
    cellAddr p f w d + f.cellSize ≤ cellAddr p f w' d' ∨
    cellAddr p f w' d' + f.cellSize ≤ cellAddr p f w d := by
  -- different depth blocks
  have blk : ∀ {w d w' d' : Nat}, w < p.l2_width → d < p.l2_depth →
      d / p.l1_depth < d' / p.l1_depth →
      cellAddr p f w d + f.cellSize ≤ cellAddr p f w' d' := by
    intro w d w' d' hw hd hlt
    have h1 := cell_in_tile h hw hd
    have h2 := runLen_le p (d / p.l1_depth)
    have h3 : p.l1_depth * (d / p.l1_depth) + p.l1_depth ≤ p.l1_depth * (d' / p.l1_depth) := by
      have := Nat.mul_le_mul_left p.l1_depth hlt
      rw [Nat.succ_eq_add_one, Nat.mul_add] at this; omega
    have h4 := Nat.mul_le_mul_left p.l2_width (Nat.le_trans (Nat.add_le_add_left h2 _) h3)
    have h5 : p.l2_width * (p.l1_depth * (d' / p.l1_depth)) ≤ cellAddr p f w' d' := by
      unfold cellAddr; omega
    omega
  -- same depth block, different tiles
  have tile : ∀ {w d w' d' : Nat}, d < p.l2_depth →
      d / p.l1_depth = d' / p.l1_depth → w / f.kw < w' / f.kw →
      cellAddr p f w d + f.cellSize ≤ cellAddr p f w' d' := by
    intro w d w' d' hd he hlt
    have h1 := cell_in_run (w := w) h hd
    have h3 : f.kw * (w / f.kw) + f.kw ≤ f.kw * (w' / f.kw) := by
      have := Nat.mul_le_mul_left f.kw hlt
      rw [Nat.succ_eq_add_one, Nat.mul_add] at this; omega
    have h4 := Nat.mul_le_mul_right (runLen p (d / p.l1_depth)) h3
    rw [Nat.add_mul] at h4
    unfold cellAddr
    rw [← he]
    omega
  rcases Nat.lt_trichotomy (d / p.l1_depth) (d' / p.l1_depth) with hlt | heq | hgt
  · exact Or.inl (blk hw hd hlt)
  · rcases Nat.lt_trichotomy (w / f.kw) (w' / f.kw) with hlt | heq2 | hgt
    · exact Or.inl (tile hd heq hlt)
    · -- same run: the cell numbers differ
      have hwc : w % f.kw / f.cw < f.cells := by
        rw [Nat.div_lt_iff_lt_mul h.wf.cw_pos, Nat.mul_comm]
        exact Nat.mod_lt _ h.wf.kw_pos
      have hwc' : w' % f.kw / f.cw < f.cells := by
        rw [Nat.div_lt_iff_lt_mul h.wf.cw_pos, Nat.mul_comm]
        exact Nat.mod_lt _ h.wf.kw_pos
      have hcn : d % p.l1_depth / f.cd * f.cells + w % f.kw / f.cw ≠
          d' % p.l1_depth / f.cd * f.cells + w' % f.kw / f.cw := by
        intro he
        have := mixed_inj (a := w % f.kw / f.cw) (a' := w' % f.kw / f.cw) (m := f.cells)
          (b := d % p.l1_depth / f.cd) (b' := d' % p.l1_depth / f.cd) hwc hwc' (by omega)
        apply hne
        constructor
        · have e1 := div_split w f.cw f.cells
          have e2 := div_split w' f.cw f.cells
          change w / f.kw * f.cells + w % f.kw / f.cw = w / f.cw at e1
          change w' / f.kw * f.cells + w' % f.kw / f.cw = w' / f.cw at e2
          rw [← e1, ← e2, heq2, this.1]
        · obtain ⟨n, hn⟩ : f.cd ∣ p.l1_depth := Nat.dvd_trans h.wf.cd_dvd h.l1d_dvd
          have e1 := div_split d f.cd n
          have e2 := div_split d' f.cd n
          rw [← hn] at e1 e2
          rw [← e1, ← e2, heq, this.2]
      have key : ∀ {x y : Nat}, x < y → x * f.cellSize + f.cellSize ≤ y * f.cellSize := by
        intro x y hxy
        have := Nat.mul_le_mul_right f.cellSize hxy
        rw [Nat.succ_eq_add_one, Nat.add_mul, Nat.one_mul] at this; exact this
      unfold cellAddr
      rw [← heq, ← heq2]
      rcases Nat.lt_or_gt_of_ne hcn with hl | hg
      · left; have := key hl; omega
      · right; have := key hg; omega
    · exact Or.inr (tile hd' heq.symm hgt)
  · exact Or.inr (blk hw' hd' hgt)

/-- Distinct coefficients have distinct addresses. -/
theorem packAddr_inj (h : p.Ok f reg) {w d w' d' : Nat}
    (hw : w < p.l2_width) (hd : d < p.l2_depth) (hw' : w' < p.l2_width) (hd' : d' < p.l2_depth)
    (he : packAddr p f w d = packAddr p f w' d') : w = w' ∧ d = d' := by
  have o1 := cellOff_lt h.wf (Nat.mod_lt w h.wf.cw_pos) (Nat.mod_lt d h.wf.cd_pos)
  have o2 := cellOff_lt h.wf (Nat.mod_lt w' h.wf.cw_pos) (Nat.mod_lt d' h.wf.cd_pos)
  unfold packAddr at he
  by_cases hs : w / f.cw = w' / f.cw ∧ d / f.cd = d' / f.cd
  · have ec : cellAddr p f w d = cellAddr p f w' d' := by
      obtain ⟨n, hn⟩ : f.cd ∣ p.l1_depth := Nat.dvd_trans h.wf.cd_dvd h.l1d_dvd
      have a1 : d / p.l1_depth = d' / p.l1_depth := by
        rw [hn, ← Nat.div_div_eq_div_mul, ← Nat.div_div_eq_div_mul, hs.2]
      have a2 : w / f.kw = w' / f.kw := by
        unfold SideFormat.kw
        rw [← Nat.div_div_eq_div_mul, ← Nat.div_div_eq_div_mul, hs.1]
      have a3 : d % p.l1_depth / f.cd = d' % p.l1_depth / f.cd := by
        rw [hn, Nat.mod_mul_right_div_self, Nat.mod_mul_right_div_self, hs.2]
      have a4 : w % f.kw / f.cw = w' % f.kw / f.cw := by
        unfold SideFormat.kw
        rw [Nat.mod_mul_right_div_self, Nat.mod_mul_right_div_self, hs.1]
      unfold cellAddr
      rw [a1, a2, a3, a4]
    have := cellOff_inj h.wf (Nat.mod_lt w h.wf.cw_pos) (Nat.mod_lt d h.wf.cd_pos)
      (Nat.mod_lt w' h.wf.cw_pos) (Nat.mod_lt d' h.wf.cd_pos) (by omega)
    constructor
    · have e1 := Nat.div_add_mod w f.cw
      have e2 := Nat.div_add_mod w' f.cw
      rw [← e1, ← e2, hs.1, this.1]
    · have e1 := Nat.div_add_mod d f.cd
      have e2 := Nat.div_add_mod d' f.cd
      rw [← e1, ← e2, hs.2, this.2]
  · rcases cells_disjoint h hw hd hw' hd' hs with h1 | h1 <;> omega

end
end Gemmlowp
