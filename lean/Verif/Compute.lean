import Verif.Kernel
/-!
# internal/compute.h
-/
namespace Gemmlowp

/-- internal/unpack.h:41-45 `PackedResult::Map`. -/
def packedResultMap (b : BlockParams) : MatrixMap :=
  { base := 0, rows := b.l2_rows, cols := b.l2_cols, stride := b.l2_rows, order := .colMajor }

/-- internal/compute.h:79-89 `ComputeRun`. -/
def computeRun (run : KernelRun) (k : KernelFormat) (b : BlockParams) (lhs rhs : PackedSide)
    (startRow startCol startDepth depth : Nat) (res : Buf (BitVec 32)) : M (Buf (BitVec 32)) := do
  let lhs := lhs.seekRun (b.side .lhs) startRow startDepth
  let rhs := rhs.seekRun (b.side .rhs) startCol startDepth
  let blk ← (packedResultMap b).block startRow startCol k.kRows k.kCols
  run res blk.base blk.rowsStride blk.colsStride lhs.data lhs.pos rhs.data rhs.pos startDepth depth

/-- internal/compute.h:91-102 `ComputeL1`. -/
def computeL1 (run : KernelRun) (k : KernelFormat) (b : BlockParams) (lhs rhs : PackedSide)
    (startRow rows startCol cols startDepth depth : Nat) (res : Buf (BitVec 32)) :
    M (Buf (BitVec 32)) := do
  assertM (decide (rows % k.kRows = 0))
  assertM (decide (cols % k.kCols = 0))
  assertM (decide (depth % k.kDepth = 0))
  forLoop 0 cols k.kCols (fun c res =>
    forLoop 0 rows k.kRows (fun r res =>
      computeRun run k b lhs rhs (startRow + r) (startCol + c) startDepth depth res) res) res

/-- internal/compute.h:51-63 `Compute`. -/
def compute (run : KernelRun) (k : KernelFormat) (b : BlockParams) (lhs rhs : PackedSide)
    (depth : Nat) (res : Buf (BitVec 32)) : M (Buf (BitVec 32)) := do
  let depth := roundUp k.kDepth depth
  assertM (decide (depth ≤ b.l2_depth))
  forLoop 0 depth b.l1_depth (fun d res =>
    let ds := min b.l1_depth (depth - d)
    forLoop 0 b.l2_rows b.l1_rows (fun r res =>
      let rs := min b.l1_rows (b.l2_rows - r)
      computeL1 run k b lhs rhs r rs 0 b.l2_cols d ds res) res) res

/-! ## Correctness -/

/-- The coefficient stored for `(w, d)` in a packed side. -/
def storedCoeff (p : SideParams) (f : SideFormat) (ps : PackedSide) (w d : Nat) : Int :=
  f.kval (ps.data.get (packAddr p f w d))

theorem storedCoeff_bound (p : SideParams) (f : SideFormat) (ps : PackedSide) (w d : Nat) :
    -255 ≤ storedCoeff p f ps w d ∧ storedCoeff p f ps w d ≤ 255 := by
  have := kval_bound f (ps.data.get (packAddr p f w d))
  unfold storedCoeff; omega

theorem runCoeff_packed {p : SideParams} {f : SideFormat} {reg : Nat} (hp : p.Ok f reg)
    {ps : PackedSide} {sw a w d : Nat} (hsw : f.kw ∣ sw) (hw : w < f.kw) (hd : d < p.l1_depth) :
    runCoeff f ps.data (posIn p f sw a 0) w d = storedCoeff p f ps (sw + w) (p.l1_depth * a + d) := by
  unfold runCoeff storedCoeff
  congr 2
  unfold packAddr cellAddr posIn
  have q1 : (p.l1_depth * a + d) / p.l1_depth = a := by
    rw [Nat.mul_add_div hp.l1d_pos, Nat.div_eq_of_lt hd]; rfl
  have q2 : (p.l1_depth * a + d) % p.l1_depth = d := by
    rw [Nat.mul_add_mod]; exact Nat.mod_eq_of_lt hd
  obtain ⟨s, rfl⟩ := hsw
  have q3 : (f.kw * s + w) / f.kw = s := by
    rw [Nat.mul_add_div hp.wf.kw_pos, Nat.div_eq_of_lt hw]; rfl
  have q4 : (f.kw * s + w) % f.kw = w := by
    rw [Nat.mul_add_mod]; exact Nat.mod_eq_of_lt hw
  have q5 : (f.kw * s + w) % f.cw = w % f.cw := by
    unfold SideFormat.kw; rw [Nat.mul_assoc, Nat.mul_add_mod]
  obtain ⟨m, hm⟩ : f.cd ∣ p.l1_depth := Nat.dvd_trans hp.wf.cd_dvd hp.l1d_dvd
  have q6 : (p.l1_depth * a + d) % f.cd = d % f.cd := by
    rw [hm, Nat.mul_assoc, Nat.mul_add_mod]
  rw [q1, q2, q3, q4, q5, q6]
  omega

/-- Result buffer progress: entries with `Q r c` and `n r c > 0` hold the first `n r c` terms. -/
structure ResIs (R C : Nat) (Q : Nat → Nat → Prop) (T : Nat → Nat → Nat → Int) (n : Nat → Nat → Nat)
    (res : Buf (BitVec 32)) : Prop where
  size : res.size = R * C
  val : ∀ r c, r < R → c < C → Q r c → 0 < n r c →
    res.get (r + c * R) = BitVec.ofInt 32 (sumTo (n r c) (T r c))

theorem ResIs.congr {R C Q T n n' res} (h : ResIs R C Q T n res)
    (e : ∀ r c, r < R → c < C → n' r c = n r c) : ResIs R C Q T n' res :=
  ⟨h.size, fun r c hr hc hq h0 => by rw [e r c hr hc] at h0 ⊢; exact h.val r c hr hc hq h0⟩

section
variable {mode : OvMode} {k : KernelFormat} {reg rows cols depth : Nat} {b : BlockParams}
  {run : KernelRun} {lhs rhs : PackedSide} {N : KernelNeeds}

theorem side_ok (hk : k.WF reg) (hb : b.Good k reg rows cols depth) :
    (b.side .lhs).Ok k.lhs reg ∧ (b.side .rhs).Ok k.rhs reg := by
  have hd : reg ∣ b.l2_depth := by rw [hb.l2_depth_eq]; exact roundUp_dvd _ _
  exact ⟨⟨hk.lhs, hb.l1_rows_pos, hb.l1_depth_pos, hb.l1_rows_dvd, hb.l1_depth_dvd,
      hb.l2_rows_dvd, hd⟩,
    ⟨hk.rhs, hb.l1_cols_pos, hb.l1_depth_pos, hb.l1_cols_dvd, hb.l1_depth_dvd,
      hb.l2_cols_dvd, hd⟩⟩

/-- The term of the product accumulated at `(r, c)` for depth `d`. -/
def term (k : KernelFormat) (b : BlockParams) (lhs rhs : PackedSide) (r c d : Nat) : Int :=
  storedCoeff (b.side .lhs) k.lhs lhs r d * storedCoeff (b.side .rhs) k.rhs rhs c d

/-- All pairs of values that contribute to entry `(r, c)` are as the kernel needs them. -/
structure Ranged (k : KernelFormat) (b : BlockParams) (N : KernelNeeds) (depth : Nat)
    (lhs rhs : PackedSide) (r c : Nat) : Prop where
  pair : ∀ d, d < b.l2_depth →
    N.pair (storedCoeff (b.side .lhs) k.lhs lhs r d) (storedCoeff (b.side .rhs) k.rhs rhs c d)
  pad : N.pad → ∀ d, roundUp k.kDepth depth ≤ d → d < b.l2_depth → term k b lhs rhs r c d = 0

theorem term_bound' (k : KernelFormat) (b : BlockParams) (lhs rhs : PackedSide) (r c d : Nat) :
    -65025 ≤ term k b lhs rhs r c d ∧ term k b lhs rhs r c d ≤ 65025 := by
  have := prod_bound (storedCoeff_bound (b.side .lhs) k.lhs lhs r d)
    (storedCoeff_bound (b.side .rhs) k.rhs rhs c d) (by omega)
  unfold term; omega

theorem run_fits {p : SideParams} {f : SideFormat} {reg sw a ds : Nat} (hp : p.Ok f reg)
    (hsw : sw + f.kw ≤ p.l2_width) (hds : ds ≤ p.l1_depth) (hds2 : p.l1_depth * a + ds ≤ p.l2_depth) :
    posIn p f sw a 0 + f.kw * ds ≤ p.l2_width * p.l2_depth := by
  have hrun : ds ≤ runLen p a := by unfold runLen; omega
  unfold posIn
  have h1 : f.kw * ds ≤ f.kw * runLen p a := Nat.mul_le_mul_left _ hrun
  have h2 : (sw + f.kw) * runLen p a ≤ p.l2_width * runLen p a := Nat.mul_le_mul_right _ hsw
  have h4 : p.l2_width * (p.l1_depth * a + runLen p a) ≤ p.l2_width * p.l2_depth := by
    apply Nat.mul_le_mul_left
    unfold runLen; omega
  rw [Nat.add_mul] at h2
  rw [Nat.mul_add] at h4
  omega

theorem computeRun_ok (hk : k.WF reg) (hb : b.Good k reg rows cols depth)
    (hrun : KernelOk mode k reg N run)
    (hls : lhs.data.size = b.l2_rows * b.l2_depth) (hrs : rhs.data.size = b.l2_cols * b.l2_depth)
    {sr sc a ds : Nat} (hsr : k.kRows ∣ sr) (hsc : k.kCols ∣ sc)
    (hsr2 : sr + k.kRows ≤ b.l2_rows) (hsc2 : sc + k.kCols ≤ b.l2_cols)
    (hds : roundUp reg ds ≤ b.l1_depth) (hds2 : b.l1_depth * a + roundUp reg ds ≤ b.l2_depth)
    (hdsl : reg ∣ ds ∨ roundUp k.kDepth depth ≤ b.l1_depth * a + ds) (hdsd : k.kDepth ∣ ds)
    (hds0 : 0 < ds) (hint : N.int → ds ≤ 2147483647)
    (hP : mode = .trap → (∀ x y, N.pair x y) ∧ ¬ N.pad)
    (hm : mode = .trap → ((b.l1_depth * a + ds : Nat) : Int) * 65025 ≤ 2147483647)
    {res : Buf (BitVec 32)} {n : Nat → Nat → Nat}
    (hn : ∀ r c, sr ≤ r → r < sr + k.kRows → sc ≤ c → c < sc + k.kCols → n r c = b.l1_depth * a)
    (hres : ResIs b.l2_rows b.l2_cols (Ranged k b N depth lhs rhs) (term k b lhs rhs) n res) :
    ∃ res', computeRun run k b lhs rhs sr sc (b.l1_depth * a) ds res = .ok res' ∧
      ResIs b.l2_rows b.l2_cols (Ranged k b N depth lhs rhs) (term k b lhs rhs)
        (updBox sr (sr + k.kRows) sc (sc + k.kCols) (b.l1_depth * a + ds) n) res' := by
  obtain ⟨hpl, hpr⟩ := side_ok hk hb
  unfold computeRun
  dsimp only
  rw [MatrixMap.block_ok (by exact hsr2) (by exact hsc2), ok_bind]
  have hpos_l : (lhs.seekRun (b.side .lhs) sr (b.l1_depth * a)).pos = posIn (b.side .lhs) k.lhs sr a 0 := by
    simp [PackedSide.seekRun, posIn, runLen, BlockParams.side]
  have hpos_r : (rhs.seekRun (b.side .rhs) sc (b.l1_depth * a)).pos = posIn (b.side .rhs) k.rhs sc a 0 := by
    simp [PackedSide.seekRun, posIn, runLen, BlockParams.side]
  rw [hpos_l, hpos_r]
  simp only [packedResultMap, MatrixMap.addr, MatrixMap.rowsStride, MatrixMap.colsStride,
    PackedSide.seekRun, Nat.mul_one, Nat.zero_add]
  have hix : ∀ r c, sr + sc * b.l2_rows + (r * 1 + c * b.l2_rows) = (sr + r) + (sc + c) * b.l2_rows := by
    intro r c; rw [Nat.add_mul]; omega
  have hup : ds ≤ roundUp reg ds := le_roundUp hk.lhs.reg_pos ds
  have hcl : ∀ r d, r < k.kRows → d < roundUp reg ds →
      runCoeff k.lhs lhs.data (posIn (b.side .lhs) k.lhs sr a 0) r d =
        storedCoeff (b.side .lhs) k.lhs lhs (sr + r) (b.l1_depth * a + d) :=
    fun r d hr hd => runCoeff_packed hpl hsr hr (by simp only [BlockParams.side]; omega)
  have hcr : ∀ c d, c < k.kCols → d < roundUp reg ds →
      runCoeff k.rhs rhs.data (posIn (b.side .rhs) k.rhs sc a 0) c d =
        storedCoeff (b.side .rhs) k.rhs rhs (sc + c) (b.l1_depth * a + d) :=
    fun c d hc hd => runCoeff_packed hpr hsc hc (by simp only [BlockParams.side]; omega)
  -- the exact value a kernel run leaves
  have hexact : ∀ r c, r < k.kRows → c < k.kCols → Ranged k b N depth lhs rhs (sr + r) (sc + c) →
      BitVec.ofInt 32 (kernelExact k res lhs.data (posIn (b.side .lhs) k.lhs sr a 0) rhs.data
        (posIn (b.side .rhs) k.rhs sc a 0) (b.l1_depth * a) ds
        (sr + sc * b.l2_rows + (r * 1 + c * b.l2_rows)) r c) =
      BitVec.ofInt 32 (sumTo (b.l1_depth * a + ds) (term k b lhs rhs (sr + r) (sc + c))) ∧
      (mode = .trap → InI32 (kernelExact k res lhs.data (posIn (b.side .lhs) k.lhs sr a 0) rhs.data
        (posIn (b.side .rhs) k.rhs sc a 0) (b.l1_depth * a) ds
        (sr + sc * b.l2_rows + (r * 1 + c * b.l2_rows)) r c)) := by
    intro r c hr hc hq
    have hsum : sumTo ds (fun d => runCoeff k.lhs lhs.data (posIn (b.side .lhs) k.lhs sr a 0) r d *
        runCoeff k.rhs rhs.data (posIn (b.side .rhs) k.rhs sc a 0) c d) =
        sumTo ds (fun d => term k b lhs rhs (sr + r) (sc + c) (b.l1_depth * a + d)) := by
      apply sumTo_congr
      intro d hd
      rw [hcl r d hr (by omega), hcr c d hc (by omega)]
      rfl
    unfold kernelExact
    rw [hsum, hix]
    by_cases ha : b.l1_depth * a = 0
    · rw [if_pos ha, ha, Int.zero_add]
      refine ⟨by simp only [Nat.zero_add], fun hmt => ?_⟩
      have h1 := hm hmt
      rw [ha, Nat.zero_add] at h1
      have := sumTo_bound (n := ds) (B := 65025)
        (fun d _ => term_bound' k b lhs rhs (sr + r) (sc + c) (0 + d))
      unfold InI32; omega
    · have hold := hres.val (sr + r) (sc + c) (by omega) (by omega) hq
        (by rw [hn _ _ (by omega) (by omega) (by omega) (by omega)]; omega)
      rw [hn _ _ (by omega) (by omega) (by omega) (by omega)] at hold
      rw [if_neg ha, hold, ofInt_add_toInt, sumTo_split]
      refine ⟨rfl, fun hmt => ?_⟩
      have h1 := hm hmt
      have b1 := sumTo_bound (n := b.l1_depth * a) (B := 65025)
        (fun d _ => term_bound' k b lhs rhs (sr + r) (sc + c) d)
      have b2 := sumTo_bound (n := ds) (B := 65025)
        (fun d _ => term_bound' k b lhs rhs (sr + r) (sc + c) (b.l1_depth * a + d))
      rw [toInt_ofInt32 (by unfold InI32; omega)]
      unfold InI32; omega
  obtain ⟨res', h1, h2, h3, h4⟩ := hrun res (sr + sc * b.l2_rows) 1 b.l2_rows lhs.data
    (posIn (b.side .lhs) k.lhs sr a 0) rhs.data (posIn (b.side .rhs) k.rhs sc a 0)
    (b.l1_depth * a) ds rfl (Nat.dvd_add hsr (Nat.dvd_trans hb.l2_rows_dvd (Nat.dvd_mul_left _ _)))
    hb.l2_rows_dvd hds0 hdsd hint
    (by rw [hls]; exact run_fits hpl hsr2 hds hds2)
    (by rw [hrs]; exact run_fits hpr hsc2 hds hds2)
    (by
      intro r c hr hc
      rw [hix, hres.size]
      exact mixed_lt (by omega) (by omega))
    (by
      intro r c r' c' hr hc hr' hc' he
      have hkr : k.kRows ≤ b.l2_rows := by omega
      exact mixed_inj (m := b.l2_rows) (by omega) (by omega) (by omega))
    (by
      intro hmt
      refine ⟨?_, fun r c hr hc => (hexact r c hr hc ⟨fun _ _ => (hP hmt).1 _ _, fun h => absurd h (hP hmt).2⟩).2 hmt⟩
      have := hm hmt
      omega)
  refine ⟨res', h1, by rw [h2]; exact hres.size, ?_⟩
  intro r c hr hc hq h0
  by_cases hin : (sr ≤ r ∧ r < sr + k.kRows) ∧ (sc ≤ c ∧ c < sc + k.kCols)
  · rw [updBox_in hin]
    have hq' : Ranged k b N depth lhs rhs (sr + (r - sr)) (sc + (c - sc)) := by
      rwa [show sr + (r - sr) = r by omega, show sc + (c - sc) = c by omega]
    have := h3 (r - sr) (c - sc) (by omega) (by omega) ⟨by
        intro d hd
        rw [hcl _ _ (by omega) (by omega), hcr _ _ (by omega) (by omega)]
        exact hq'.pair _ (by omega), by
        intro hp d h1 h2
        rw [hcl _ _ (by omega) (by omega), hcr _ _ (by omega) (by omega)]
        rcases hdsl with h | h
        · rw [roundUp_eq_self hk.lhs.reg_pos h] at h2
          omega
        · exact hq'.pad hp _ (by omega) (by omega)⟩
    rw [(hexact (r - sr) (c - sc) (by omega) (by omega) hq').1, hix] at this
    rw [show sr + (r - sr) = r by omega, show sc + (c - sc) = c by omega] at this
    exact this
  · rw [updBox_out hin] at h0 ⊢
    rw [h4]
    · exact hres.val r c hr hc hq h0
    · intro r' c' hr' hc' he
      rw [hix] at he
      obtain ⟨rfl, rfl⟩ := mixed_inj hr (by omega) he
      omega

theorem computeL1_ok (hk : k.WF reg) (hb : b.Good k reg rows cols depth)
    (hrun : KernelOk mode k reg N run)
    (hls : lhs.data.size = b.l2_rows * b.l2_depth) (hrs : rhs.data.size = b.l2_cols * b.l2_depth)
    {sr rs a ds : Nat} (hsr : k.kRows ∣ sr) (hrsd : k.kRows ∣ rs)
    (hsr2 : sr + rs ≤ b.l2_rows)
    (hds : roundUp reg ds ≤ b.l1_depth) (hds2 : b.l1_depth * a + roundUp reg ds ≤ b.l2_depth)
    (hdsl : reg ∣ ds ∨ roundUp k.kDepth depth ≤ b.l1_depth * a + ds) (hdsd : k.kDepth ∣ ds)
    (hds0 : 0 < ds) (hint : N.int → ds ≤ 2147483647)
    (hP : mode = .trap → (∀ x y, N.pair x y) ∧ ¬ N.pad)
    (hm : mode = .trap → ((b.l1_depth * a + ds : Nat) : Int) * 65025 ≤ 2147483647)
    {res : Buf (BitVec 32)} {n : Nat → Nat → Nat}
    (hn : ∀ r c, sr ≤ r → r < sr + rs → c < b.l2_cols → n r c = b.l1_depth * a)
    (hres : ResIs b.l2_rows b.l2_cols (Ranged k b N depth lhs rhs) (term k b lhs rhs) n res) :
    ∃ res', computeL1 run k b lhs rhs sr rs 0 b.l2_cols (b.l1_depth * a) ds res = .ok res' ∧
      ResIs b.l2_rows b.l2_cols (Ranged k b N depth lhs rhs) (term k b lhs rhs)
        (updBox sr (sr + rs) 0 b.l2_cols (b.l1_depth * a + ds) n) res' := by
  unfold computeL1
  rw [decide_eq_true (Nat.mod_eq_zero_of_dvd hrsd), decide_eq_true (Nat.mod_eq_zero_of_dvd hb.l2_cols_dvd),
    decide_eq_true (Nat.mod_eq_zero_of_dvd hdsd)]
  simp only [assertM_true, ok_bind]
  have hkr : 0 < k.kRows := hk.lhs.kw_pos
  have hkc : 0 < k.kCols := hk.rhs.kw_pos
  refine forLoop_postS (fun i res => ResIs b.l2_rows b.l2_cols (Ranged k b N depth lhs rhs) (term k b lhs rhs)
      (updBox sr (sr + rs) 0 i (b.l1_depth * a + ds) n) res) hkc
    (by rw [updBox_empty (by omega)]; exact hres)
    (by
      intro j s h1 h2 hI
      refine hI.congr ?_
      intro r c hr hc
      by_cases hin : (sr ≤ r ∧ r < sr + rs) ∧ (0 ≤ c ∧ c < b.l2_cols)
      · rw [updBox_in hin, updBox_in (by omega)]
      · rw [updBox_out hin, updBox_out (by omega)]) ?_
  intro j s hj hI
  simp only [Nat.zero_add] at hj hI ⊢
  have hjend : k.kCols * j + k.kCols ≤ b.l2_cols := by
    obtain ⟨q, hq⟩ := hb.l2_cols_dvd
    rw [hq] at hj ⊢
    have := Nat.mul_le_mul_left k.kCols (Nat.lt_of_mul_lt_mul_left hj)
    rw [Nat.succ_eq_add_one, Nat.mul_add] at this; omega
  refine forLoop_postS (fun i res => ResIs b.l2_rows b.l2_cols (Ranged k b N depth lhs rhs) (term k b lhs rhs)
      (updBox sr (sr + i) (k.kCols * j) (k.kCols * j + k.kCols) (b.l1_depth * a + ds)
        (updBox sr (sr + rs) 0 (k.kCols * j) (b.l1_depth * a + ds) n)) res) hkr
    (by rw [updBox_empty (by omega)]; exact hI)
    (by
      intro i s h1 h2 hI
      have hi : k.kRows * i = rs := by
        obtain ⟨q, hq⟩ := hrsd
        simp only [Nat.zero_add] at h1 h2
        rw [hq] at h1 h2 ⊢
        have a1 := Nat.le_of_mul_le_mul_left h1 hkr
        rcases h2 with h2 | h2
        · subst h2; have : q = 0 := by omega
          subst this; rfl
        · have := Nat.lt_of_mul_lt_mul_left h2
          have : i = q := by omega
          rw [this]
      rw [Nat.zero_add, hi] at hI
      refine hI.congr ?_
      intro r c hr hc
      rw [Nat.mul_add, Nat.mul_one]
      by_cases hin : (sr ≤ r ∧ r < sr + rs) ∧ (k.kCols * j ≤ c ∧ c < k.kCols * j + k.kCols)
      · rw [updBox_in hin, updBox_in (by omega)]
      · rw [updBox_out hin]
        by_cases hin2 : (sr ≤ r ∧ r < sr + rs) ∧ (0 ≤ c ∧ c < k.kCols * j)
        · rw [updBox_in hin2, updBox_in (by omega)]
        · rw [updBox_out hin2, updBox_out (by omega)]) ?_
  intro i s2 hi hI2
  simp only [Nat.zero_add] at hi hI2 ⊢
  have hiend : k.kRows * i + k.kRows ≤ rs := by
    obtain ⟨q, hq⟩ := hrsd
    rw [hq] at hi ⊢
    have := Nat.mul_le_mul_left k.kRows (Nat.lt_of_mul_lt_mul_left hi)
    rw [Nat.succ_eq_add_one, Nat.mul_add] at this; omega
  obtain ⟨s3, c1, c2⟩ := computeRun_ok (mode := mode) (a := a) (ds := ds) hk hb hrun hls hrs
    (sr := sr + k.kRows * i) (sc := k.kCols * j)
    (Nat.dvd_add hsr (Nat.dvd_mul_right _ _)) (Nat.dvd_mul_right _ _) (by omega) hjend hds hds2
    hdsl hdsd hds0 hint hP hm
    (by
      intro r c h1 h2 h3 h4
      rw [updBox_out (by omega), updBox_out (by omega), hn r c (by omega) (by omega) (by omega)])
    hI2
  refine ⟨s3, c1, c2.congr ?_⟩
  intro r c hr hc
  rw [Nat.mul_add, Nat.mul_one]
  by_cases hin : (sr + k.kRows * i ≤ r ∧ r < sr + k.kRows * i + k.kRows) ∧
      (k.kCols * j ≤ c ∧ c < k.kCols * j + k.kCols)
  · rw [updBox_in hin, updBox_in (by omega)]
  · rw [updBox_out hin]
    by_cases hin2 : (sr ≤ r ∧ r < sr + k.kRows * i) ∧ (k.kCols * j ≤ c ∧ c < k.kCols * j + k.kCols)
    · rw [updBox_in hin2, updBox_in (by omega)]
    · rw [updBox_out hin2, updBox_out (by omega)]

/-- After `Compute`, every entry of the packed result whose operands are in the range of the kernel
is the product of the stored coefficients. -/
theorem compute_ok (hk : k.WF reg) (hb : b.Good k reg rows cols depth)
    (hrun : KernelOk mode k reg N run)
    (hls : lhs.data.size = b.l2_rows * b.l2_depth) (hrs : rhs.data.size = b.l2_cols * b.l2_depth)
    (hd0 : 0 < depth) (hint : N.int → roundUp k.kDepth depth ≤ 2147483647)
    (hP : mode = .trap → (∀ x y, N.pair x y) ∧ ¬ N.pad)
    (hm : mode = .trap → ((roundUp k.kDepth depth : Nat) : Int) * 65025 ≤ 2147483647)
    {res : Buf (BitVec 32)} (hsz : res.size = b.l2_rows * b.l2_cols) :
    ∃ res', compute run k b lhs rhs depth res = .ok res' ∧ res'.size = b.l2_rows * b.l2_cols ∧
      ∀ r c, r < b.l2_rows → c < b.l2_cols → Ranged k b N depth lhs rhs r c → res'.get (r + c * b.l2_rows) =
        BitVec.ofInt 32 (sumTo (roundUp k.kDepth depth) (term k b lhs rhs r c)) := by
  unfold compute
  dsimp only
  have hcd : 0 < k.kDepth := hk.lhs.cd_pos
  have hcdreg : k.kDepth ∣ reg := hk.lhs.cd_dvd
  have hle : roundUp k.kDepth depth ≤ b.l2_depth := by
    rw [hb.l2_depth_eq]
    exact roundUp_le_of_dvd hcd (Nat.dvd_trans hcdreg (roundUp_dvd _ _))
      (le_roundUp hk.lhs.reg_pos _)
  rw [decide_eq_true hle, assertM_true, ok_bind]
  have hpos : 0 < roundUp k.kDepth depth := roundUp_pos hcd hd0
  have hdv : k.kDepth ∣ roundUp k.kDepth depth := roundUp_dvd _ _
  have hl1d : k.kDepth ∣ b.l1_depth := Nat.dvd_trans hcdreg hb.l1_depth_dvd
  have hreg : 0 < reg := hk.lhs.reg_pos
  have hl2 : b.l2_depth = roundUp reg (roundUp k.kDepth depth) := by
    rw [hb.l2_depth_eq]
    exact Nat.le_antisymm (roundUp_mono hreg (le_roundUp hcd _))
      (roundUp_le_of_dvd hreg (roundUp_dvd _ _)
        (roundUp_le_of_dvd hcd (Nat.dvd_trans hcdreg (roundUp_dvd _ _)) (le_roundUp hreg _)))
  generalize hDeq : roundUp k.kDepth depth = D at hle hpos hdv hm hl2 hint ⊢
  refine forLoop_postS (fun i res => ResIs b.l2_rows b.l2_cols (Ranged k b N depth lhs rhs) (term k b lhs rhs)
      (fun _ _ => min i D) res) hb.l1_depth_pos
    ⟨hsz, by intro r c _ _ _ h; simp at h⟩
    (by
      intro i s h1 _ hI
      have hmin : min (0 + b.l1_depth * i) D = D := by omega
      rw [hmin] at hI
      exact ⟨hI.size, fun r c hr hc hq => hI.val r c hr hc hq hpos⟩) ?_
  intro a s ha hI
  simp only [Nat.zero_add] at ha hI ⊢
  have hmin1 : min (b.l1_depth * a) D = b.l1_depth * a := by omega
  rw [hmin1] at hI
  have hnew : b.l1_depth * a + min b.l1_depth (D - b.l1_depth * a) =
      min (b.l1_depth * (a + 1)) D := by rw [Nat.mul_add, Nat.mul_one]; omega
  have hdsd : k.kDepth ∣ min b.l1_depth (D - b.l1_depth * a) := by
    rcases Nat.le_total b.l1_depth (D - b.l1_depth * a) with h | h
    · rw [Nat.min_eq_left h]; exact hl1d
    · rw [Nat.min_eq_right h]
      exact Nat.dvd_sub hdv (Nat.dvd_trans hl1d (Nat.dvd_mul_right _ _))
  have hds0 : 0 < min b.l1_depth (D - b.l1_depth * a) := by have := hb.l1_depth_pos; omega
  have hads : reg ∣ b.l1_depth * a := Nat.dvd_trans hb.l1_depth_dvd (Nat.dvd_mul_right _ _)
  have hds3 : roundUp reg (min b.l1_depth (D - b.l1_depth * a)) ≤ b.l1_depth :=
    roundUp_le_of_dvd hreg hb.l1_depth_dvd (by omega)
  have hds4 : b.l1_depth * a + roundUp reg (min b.l1_depth (D - b.l1_depth * a)) ≤ b.l2_depth := by
    have hl2d : reg ∣ b.l2_depth := by rw [hl2]; exact roundUp_dvd _ _
    have := roundUp_le_of_dvd hreg (i := min b.l1_depth (D - b.l1_depth * a))
      (Nat.dvd_sub hl2d hads) (by omega)
    omega
  have hdsl : reg ∣ min b.l1_depth (D - b.l1_depth * a) ∨
      roundUp k.kDepth depth ≤ b.l1_depth * a + min b.l1_depth (D - b.l1_depth * a) := by
    rcases Nat.le_total b.l1_depth (D - b.l1_depth * a) with h | h
    · rw [Nat.min_eq_left h]; exact Or.inl hb.l1_depth_dvd
    · rw [Nat.min_eq_right h, hDeq]; exact Or.inr (by omega)
  have hm' : mode = .trap →
      ((b.l1_depth * a + min b.l1_depth (D - b.l1_depth * a) : Nat) : Int) * 65025 ≤ 2147483647 := by
    intro h
    have := hm h
    have : b.l1_depth * a + min b.l1_depth (D - b.l1_depth * a) ≤ D := by omega
    omega
  refine forLoop_postS (fun i res => ResIs b.l2_rows b.l2_cols (Ranged k b N depth lhs rhs) (term k b lhs rhs)
      (updBox 0 i 0 b.l2_cols (min (b.l1_depth * (a + 1)) D) (fun _ _ => b.l1_depth * a)) res)
    hb.l1_rows_pos
    (by rw [updBox_empty (by omega)]; exact hI)
    (by
      intro i s h1 _ hI
      refine hI.congr ?_
      intro r c hr hc
      rw [updBox_in (by omega)]) ?_
  intro i s2 hi hI2
  simp only [Nat.zero_add] at hi hI2 ⊢
  obtain ⟨s3, c1, c2⟩ := computeL1_ok (mode := mode) (a := a)
    (ds := min b.l1_depth (D - b.l1_depth * a)) hk hb hrun hls hrs
    (sr := b.l1_rows * i) (rs := min b.l1_rows (b.l2_rows - b.l1_rows * i))
    (Nat.dvd_trans hb.l1_rows_dvd (Nat.dvd_mul_right _ _))
    (by
      rcases Nat.le_total b.l1_rows (b.l2_rows - b.l1_rows * i) with h | h
      · rw [Nat.min_eq_left h]; exact hb.l1_rows_dvd
      · rw [Nat.min_eq_right h]
        exact Nat.dvd_sub hb.l2_rows_dvd (Nat.dvd_trans hb.l1_rows_dvd (Nat.dvd_mul_right _ _)))
    (by omega) hds3 hds4 hdsl hdsd hds0 (fun h => by have := hint h; omega) hP hm'
    (by
      intro r c h1 h2 h3
      rw [updBox_out (by omega)])
    hI2
  refine ⟨s3, c1, c2.congr ?_⟩
  intro r c hr hc
  rw [Nat.mul_add b.l1_rows, Nat.mul_one, hnew]
  by_cases hin : (b.l1_rows * i ≤ r ∧
      r < b.l1_rows * i + min b.l1_rows (b.l2_rows - b.l1_rows * i)) ∧ (0 ≤ c ∧ c < b.l2_cols)
  · rw [updBox_in hin, updBox_in (by omega)]
  · rw [updBox_out hin]
    by_cases hin2 : (0 ≤ r ∧ r < b.l1_rows * i) ∧ (0 ≤ c ∧ c < b.l2_cols)
    · rw [updBox_in hin2, updBox_in (by omega)]
    · rw [updBox_out hin2, updBox_out (by omega)]

end

end Gemmlowp
