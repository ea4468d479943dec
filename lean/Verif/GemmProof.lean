import Verif.Gemm
/-!
# Correctness of one block product, and of `SingleThreadGemm`
-/
namespace Gemmlowp

/-- The value of a byte written by packing, as the kernel reads it back. -/
theorem kval_toByte (f : SideFormat) {v : Int}
    (h : match f.scalar with | .uint8 => 0 ≤ v ∧ v ≤ 255 | _ => -128 ≤ v ∧ v ≤ 127) :
    f.kval (toByte v) = v := by
  unfold SideFormat.kval toByte
  have hb : (UInt8.ofNat (v % 256).toNat).toNat = (v % 256).toNat := by
    rw [UInt8.toNat_ofNat']; omega
  rw [hb]
  cases hs : f.scalar <;> simp only [hs] at h ⊢
  · omega
  · split <;> omega
  · split <;> omega

theorem kval_packVal (f : SideFormat) (W D : Nat) (B : Nat → Nat → UInt8) (w d : Nat) :
    f.kval (toByte (packVal f W D B w d)) = packVal f W D B w d := by
  apply kval_toByte
  have := InputScalar.val_bound f.input (B w d)
  revert this
  unfold packVal SideFormat.unwrap SideFormat.zp SideFormat.input InputScalar.lo InputScalar.hi
  cases f.scalar <;> simp only <;> split <;> omega

/-- Algebra of the offset correction. -/
theorem corrected_eq (depth : Nat) (l r : Nat → Int) (lo ro : Int) :
    corrected depth (sumTo depth (fun d => l d * r d)) (sumTo depth l) (sumTo depth r) lo ro =
      sumTo depth (fun d => (l d + lo) * (r d + ro)) := by
  have h : ∀ d, (l d + lo) * (r d + ro) = l d * r d + (ro * l d + (lo * r d + lo * ro)) := by
    intro d
    rw [Int.add_mul, Int.mul_add, Int.mul_add, Int.mul_comm (l d) ro]; omega
  rw [sumTo_congr (fun d _ => h d), sumTo_add_fn, sumTo_add_fn, sumTo_add_fn, sumTo_mul_left,
    sumTo_mul_left, sumTo_const]
  unfold corrected
  have h1 : ro * (depth : Int) * lo = depth * (lo * ro) := by ac_rfl
  rw [Int.add_mul, Int.mul_comm (sumTo depth l), Int.mul_comm (sumTo depth r), h1]
  omega

/-- Every intermediate value of the correction fits when the offsets, and the inputs with the offsets added,
are in `[-255, 255]` and the depth is at most 33024.  `l`, `r` are the values seen by the kernel (input minus
zero point) and `lo0 + zl`, `ro0 + zr` the offsets plus zero points. -/
theorem correction_fits {depth : Nat} {l r : Nat → Int} {lo0 ro0 zl zr : Int}
    (hd : depth ≤ 33024)
    (hzl : zl = 0 ∨ zl = 128) (hzr : zr = 0 ∨ zr = 128)
    (lb : ∀ d, d < depth → -255 ≤ l d ∧ l d ≤ 255)
    (rb : ∀ d, d < depth → -255 ≤ r d ∧ r d ≤ 255)
    (lob : -255 ≤ lo0 + zl ∧ lo0 + zl ≤ 255) (rob : -255 ≤ ro0 + zr ∧ ro0 + zr ≤ 255)
    (llo : ∀ d, d < depth → -255 ≤ l d + (lo0 + zl) ∧ l d + (lo0 + zl) ≤ 255)
    (rro : ∀ d, d < depth → -255 ≤ r d + (ro0 + zr) ∧ r d + (ro0 + zr) ≤ 255) :
    CorrectionFits depth (sumTo depth (fun d => l d * r d)) (sumTo depth l) (sumTo depth r)
      lo0 ro0 (lo0 + zl) (ro0 + zr) := by
  have hd' : (depth : Int) ≤ 33024 := by omega
  have big : ∀ g : Nat → Int, (∀ d, d < depth → -65025 ≤ g d ∧ g d ≤ 65025) →
      InI32 (sumTo depth g) := by
    intro g hg
    have := sumTo_bound hg
    unfold InI32; omega
  have prb : ∀ {a b : Int}, -255 ≤ a ∧ a ≤ 255 → -255 ≤ b ∧ b ≤ 255 →
      -65025 ≤ a * b ∧ a * b ≤ 65025 := by
    intro a b ha hb
    have := prod_bound ha hb (by omega)
    omega
  have e1 : sumTo depth l * (ro0 + zr) = sumTo depth (fun d => (ro0 + zr) * l d) := by
    rw [sumTo_mul_left, Int.mul_comm]
  have e2 : (ro0 + zr) * (depth : Int) = sumTo depth (fun _ => ro0 + zr) := by
    rw [sumTo_const, Int.mul_comm]
  have e3 : sumTo depth r + (ro0 + zr) * (depth : Int) = sumTo depth (fun d => r d + (ro0 + zr)) := by
    rw [e2, ← sumTo_add_fn]
  have e4 : (sumTo depth r + (ro0 + zr) * (depth : Int)) * (lo0 + zl) =
      sumTo depth (fun d => (lo0 + zl) * (r d + (ro0 + zr))) := by
    rw [e3, sumTo_mul_left, Int.mul_comm]
  constructor
  · exact big _ fun d h => prb (lb d h) (rb d h)
  · exact big _ fun d h => by have := lb d h; omega
  · exact big _ fun d h => by have := rb d h; omega
  · unfold InI32; omega
  · unfold InI32; omega
  · unfold InI32; omega
  · unfold InI32; omega
  · rw [e1]; exact big _ fun d h => prb rob (lb d h)
  · rw [e1, ← sumTo_add_fn]
    refine big _ fun d h => ?_
    rw [Int.mul_comm (ro0 + zr), ← Int.mul_add]
    exact prb (lb d h) (rro d h)
  · unfold InI32; omega
  · rw [e2]; exact big _ fun d h => by omega
  · rw [e3]; exact big _ fun d h => by have := rro d h; omega
  · rw [e4]; exact big _ fun d h => prb lob (rro d h)
  · rw [corrected_eq]; exact big _ fun d h => prb (llo d h) (rro d h)

/-- An offset that is the negated zero point of the input type, alone and added to an input. -/
theorem offset_fits {f : SideFormat} {t : InputScalar} (ht : f.input = t) {o : Int}
    (ho : -t.hi ≤ o ∧ o ≤ -t.lo) :
    (-255 ≤ o + f.zp ∧ o + f.zp ≤ 255) ∧
      ∀ b, -255 ≤ f.unwrap b + (o + f.zp) ∧ f.unwrap b + (o + f.zp) ≤ 255 := by
  subst ht
  have e : ∀ b, f.unwrap b + (o + f.zp) = f.input.val b + o := by
    intro b; unfold SideFormat.unwrap; omega
  refine ⟨?_, fun b => ?_⟩
  · revert ho
    unfold SideFormat.zp SideFormat.input InputScalar.lo InputScalar.hi
    cases f.scalar <;> simp only <;> omega
  · rw [e]
    have := InputScalar.val_bound f.input b
    revert ho this
    unfold InputScalar.lo InputScalar.hi
    cases f.input <;> simp only <;> omega

/-! ## One block -/

section
variable {β : Type} {a : GemmArgs β} {b : BlockParams} {rows cols depth : Nat}
  {ty : InputScalar} {L R : Nat → Nat → UInt8} {LO RO : Nat → BitVec 32} {N : KernelNeeds}

/-- The packed LHS holds rows `sr .. sr + rs - 1` of `L`. -/
def PackedLhsIs (a : GemmArgs β) (b : BlockParams) (L : Nat → Nat → UInt8) (depth sr rs : Nat)
    (ps : PackedSide) : Prop :=
  Packed (b.side .lhs) a.k.lhs a.reg rs depth
    (packVal a.k.lhs rs depth (fun w d => L (sr + w) d)) ps

/-- The packed RHS holds columns `sc .. sc + cs - 1` of `R`. -/
def PackedRhsIs (a : GemmArgs β) (b : BlockParams) (R : Nat → Nat → UInt8) (depth sc cs : Nat)
    (ps : PackedSide) : Prop :=
  Packed (b.side .rhs) a.k.rhs a.reg cs depth
    (packVal a.k.rhs cs depth (fun w d => R d (sc + w))) ps

theorem packed_coeff {p : SideParams} {f : SideFormat} {reg W D : Nat} {B : Nat → Nat → UInt8}
    {ps : PackedSide} (h : Packed p f reg W D (packVal f W D B) ps) (hkw : 0 < f.kw)
    {w d : Nat} (hw : w < W) (hd : d < roundUp reg D) :
    storedCoeff p f ps w d = packVal f W D B w d := by
  unfold storedCoeff
  rw [h.data w d (Nat.lt_of_lt_of_le hw (le_roundUp hkw W)) hd, kval_packVal]

theorem packed_sum {p : SideParams} {f : SideFormat} {reg W D : Nat} {B : Nat → Nat → UInt8}
    {ps : PackedSide} (h : Packed p f reg W D (packVal f W D B) ps) (hkw : 0 < f.kw)
    (hreg : 0 < reg) {w : Nat} (hw : w < W) :
    ps.sums.get w = BitVec.ofInt 32 (sumTo D (packVal f W D B w)) := by
  rw [h.sums w (Nat.lt_of_lt_of_le hw (le_roundUp hkw W))]
  congr 1
  apply sumTo_zero_tail (le_roundUp hreg D)
  intro i h1 _
  unfold packVal
  rw [if_neg (by omega)]

theorem sumsVec_is {sh : VectorShape} {buf : Buf (BitVec 32)} {n : Nat} {S : Nat → Int}
    (hn : n ≤ buf.size) (hS : ∀ i, i < n → buf.get i = BitVec.ofInt 32 (S i)) :
    (sumsVec sh buf n).Is sh n (fun i => BitVec.ofInt 32 (S i)) := by
  refine ⟨rfl, rfl, ?_⟩
  intro i hi
  simp only [sumsVec, OffsetVec.read, Nat.zero_add]
  rw [if_pos (show i < buf.size by omega), hS i hi]

theorem gemmStep_ok (hK : a.Kernel ty N) (hb : b.Good a.k a.reg rows cols depth)
    {R0 C0 : Nat} (hlo : a.lhsOffset.Is .col R0 LO) (hro : a.rhsOffset.Is .row C0 RO)
    (hfits : NoOverflow ty a.mode R0 C0 depth LO RO) (hd0 : 0 < depth)
    (hW : a.Within N L R) (hdepth : depth = a.lhs.cols)
    {pl pr : PackedSide} {sr sc rs cs : Nat}
    (hpl : PackedLhsIs a b L depth sr rs pl) (hpr : PackedRhsIs a b R depth sc cs pr)
    (hrs : rs ≤ b.l2_rows) (hcs : cs ≤ b.l2_cols) (hsr : sr + rs ≤ R0) (hsc : sc + cs ≤ C0)
    (hsr' : sr + rs ≤ a.result.rows) (hsc' : sc + cs ≤ a.result.cols)
    {P : Nat → Nat → BitVec 32 → β → Prop} (hp : OutOk a.out a.mode P) {val : Nat → Nat → β}
    (hv : ∀ r c, sr ≤ r → r < sr + rs → sc ≤ c → c < sc + cs →
      P r c (BitVec.ofInt 32 (exactEntry ty depth L R LO RO r c)) (val r c))
    {res : Buf (BitVec 32)} (hsz : res.size = b.l2_rows * b.l2_cols) (t : Trace β) :
    ∃ res' t', gemmStep a b pl pr sr sc rs cs depth res t = .ok (res', t') ∧
      res'.size = b.l2_rows * b.l2_cols ∧
      Adds t t' (rect (fun r c => (a.result.addr r c, val r c)) sr rs sc cs) := by
  have hkl : 0 < a.k.lhs.kw := hK.wf.lhs.kw_pos
  have hkr : 0 < a.k.rhs.kw := hK.wf.rhs.kw_pos
  have hreg : 0 < a.reg := hK.wf.lhs.reg_pos
  have hcd : 0 < a.k.kDepth := hK.wf.lhs.cd_pos
  have hrud : roundUp a.k.kDepth depth ≤ roundUp a.reg depth :=
    roundUp_le_of_dvd hcd (Nat.dvd_trans hK.wf.lhs.cd_dvd (roundUp_dvd _ _)) (le_roundUp hreg _)
  have hdd : depth ≤ roundUp a.k.kDepth depth := le_roundUp hcd _
  obtain ⟨km, hrun, hkm⟩ := hK.run
  obtain ⟨res', c1, c2, c3⟩ := compute_ok (mode := km) (lhs := pl) (rhs := pr) hK.wf hb hrun
    hpl.dataSize hpr.dataSize hd0 (by rw [hdepth]; exact hW.int) (fun h => (hkm h).2)
    (by
      intro hm
      have h1 := (hfits (hkm hm).1).1
      have h2 : roundUp a.reg depth ≤ 33024 := roundUp_le_of_dvd hreg hK.regDvd h1
      omega) hsz
  obtain ⟨lo, o1, o2⟩ := OffsetVec.block_ok hlo hsr
  obtain ⟨ro, o3, o4⟩ := OffsetVec.block_ok hro hsc
  unfold gemmStep
  rw [c1, ok_bind, o1, ok_bind, o3, ok_bind]
  unfold unpackResult
  -- values seen by the kernel
  let l : Nat → Nat → Int := packVal a.k.lhs rs depth (fun w d => L (sr + w) d)
  let r : Nat → Nat → Int := packVal a.k.rhs cs depth (fun w d => R d (sc + w))
  have hl : ∀ w d, w < rs → d < depth → l w d = a.k.lhs.unwrap (L (sr + w) d) := by
    intro w d hw hd
    show packVal _ _ _ _ _ _ = _
    unfold packVal; rw [if_pos ⟨hw, hd⟩]
  have hr : ∀ w d, w < cs → d < depth → r w d = a.k.rhs.unwrap (R d (sc + w)) := by
    intro w d hw hd
    show packVal _ _ _ _ _ _ = _
    unfold packVal; rw [if_pos ⟨hw, hd⟩]
  have hA : ∀ i j, i < rs → j < cs → res'.get (i + j * b.l2_rows) =
      BitVec.ofInt 32 (sumTo depth (fun d => l i d * r j d)) := by
    intro i j hi hj
    have hpad : ∀ d, depth ≤ d → ∀ (f : SideFormat) W B w, packVal f W depth B w d = 0 := by
      intro d hd f W B w
      unfold packVal; rw [if_neg (by omega)]
    rw [c3 i j (by omega) (by omega) ⟨by
      intro d hd
      rw [hb.l2_depth_eq] at hd
      rw [packed_coeff hpl hkl hi hd, packed_coeff hpr hkr hj hd]
      by_cases hdd : d < depth
      · have e1 := hl i d hi hdd
        have e2 := hr j d hj hdd
        dsimp only [l, r] at e1 e2
        rw [e1, e2]
        exact hW.val _ _ _ (by omega) (by omega) (by omega)
      · rw [hpad d (by omega), hpad d (by omega)]
        exact hW.pad, by
      intro _ d h1 h2
      rw [hb.l2_depth_eq] at h2
      unfold term
      rw [packed_coeff hpl hkl hi h2, hpad d (by omega), Int.zero_mul]⟩]
    congr 1
    rw [← sumTo_zero_tail (f := fun d => l i d * r j d) hdd]
    · apply sumTo_congr
      intro d hd
      unfold term
      rw [packed_coeff hpl hkl hi (by omega), packed_coeff hpr hkr hj (by omega)]
    · intro d h1 h2
      have : l i d = 0 := by
        show packVal _ _ _ _ _ _ = _
        unfold packVal; rw [if_neg (by omega)]
      rw [this, Int.zero_mul]
  have hzp : ∀ f : SideFormat, (f.zp : Int) = 0 ∨ (f.zp : Int) = 128 := by
    intro f; unfold SideFormat.zp; cases f.scalar <;> simp
  have hholds : UnpackCtx.Holds
      { mode := a.mode, k := a.k, src := res', srcMap := packedResultMap b
        lhsSums := sumsVec .col pl.sums rs, rhsSums := sumsVec .row pr.sums cs
        lhsOffset := lo, rhsOffset := ro, depth := depth, startRow := sr, startCol := sc
        dst := a.result } rs cs
      (fun i j => sumTo depth (fun d => l i d * r j d))
      (fun i => sumTo depth (l i)) (fun j => sumTo depth (r j))
      (fun i => (LO (sr + i)).toInt) (fun j => (RO (sc + j)).toInt) := by
    refine ⟨rfl, ?_, ?_, ?_, ?_, ?_, ?_⟩
    · intro i j hi hj
      have e : (packedResultMap b).addr i j = i + j * b.l2_rows := by
        simp [packedResultMap, MatrixMap.addr, MatrixMap.rowsStride, MatrixMap.colsStride]
      refine ⟨?_, by dsimp only; rw [e]; exact hA i j hi hj⟩
      dsimp only
      rw [e, c2]
      exact mixed_lt (by omega) (by omega)
    · refine sumsVec_is ?_ fun i hi => packed_sum hpl hkl hreg hi
      rw [hpl.sumsSize]; exact hrs
    · refine sumsVec_is ?_ fun i hi => packed_sum hpr hkr hreg hi
      rw [hpr.sumsSize]; exact hcs
    · simp only [ofInt_toInt32]; exact o2
    · simp only [ofInt_toInt32]; exact o4
    · intro hm i j hi hj
      obtain ⟨f1, f2, f3⟩ := hfits hm
      have g2 := f2 (sr + i) (by omega)
      have g3 := f3 (sc + j) (by omega)
      have hL := offset_fits hK.inputLhs g2
      have hR := offset_fits hK.inputRhs g3
      refine correction_fits f1 (hzp _) (hzp _) ?_ ?_ hL.1 hR.1 ?_ ?_
      · intro d hd; rw [hl i d hi hd]; exact unwrap_bound _ _
      · intro d hd; rw [hr j d hj hd]; exact unwrap_bound _ _
      · intro d hd; rw [hl i d hi hd]; exact hL.2 _
      · intro d hd; rw [hr j d hj hd]; exact hR.2 _
  have hev := hp _ rs cs _ _ _ _ _ (fun i j => val (sr + i) (sc + j)) rfl hholds (by
    intro i j hi hj
    dsimp only
    rw [corrected_eq, Nat.add_comm i, Nat.add_comm j]
    have e : sumTo depth (fun d => (l i d + ((LO (sr + i)).toInt + (a.k.lhs.zp : Int))) *
        (r j d + ((RO (sc + j)).toInt + (a.k.rhs.zp : Int)))) =
        exactEntry ty depth L R LO RO (sr + i) (sc + j) := by
      unfold exactEntry
      apply sumTo_congr
      intro d hd
      rw [hl i d hi hd, hr j d hj hd]
      unfold SideFormat.unwrap
      rw [hK.inputLhs, hK.inputRhs]
      congr 1 <;> omega
    rw [e]
    exact hv _ _ (by omega) (by omega) (by omega) (by omega))
  obtain ⟨t', u1, u2⟩ := UnpackCtx.run_ok hev hsr' hsc' t
  refine ⟨res', t', ?_, c2, ?_⟩
  · rw [u1, ok_bind]; rfl
  · have := rect_shift (out := fun r c => (a.result.addr r c, val r c)) sr sc 0 rs 0 cs
    rw [Nat.add_zero, Nat.add_zero] at this
    rw [← this]
    obtain ⟨u, e1, e2⟩ := u2
    refine ⟨u, e1, e2.trans (List.Perm.of_eq ?_)⟩
    apply rect_congr
    intro i j _ _ _ _
    unfold UnpackCtx.outOf
    dsimp only
    rw [Nat.add_comm i, Nat.add_comm j]

theorem packRange (hb : b.Good a.k a.reg rows cols depth) (hK : a.Kernel ty N) {R0 C0 : Nat}
    (hfits : NoOverflow ty a.mode R0 C0 depth LO RO) :
    PackRange a.mode (b.side .lhs) ∧ PackRange a.mode (b.side .rhs) := by
  have key : a.mode = .trap → 255 * (b.l2_depth : Int) ≤ 2147483647 := by
    intro hm
    have h1 := (hfits hm).1
    have h2 : roundUp a.reg depth ≤ 33024 := roundUp_le_of_dvd hK.wf.lhs.reg_pos hK.regDvd h1
    rw [hb.l2_depth_eq]
    omega
  exact ⟨key, key⟩

theorem packLhs_ok (hK : a.Kernel ty N) (hb : b.Good a.k a.reg rows cols depth) {R0 C0 : Nat}
    (hfits : NoOverflow ty a.mode R0 C0 depth LO RO)
    {m : MatrixMap} {sr rs : Nat} (hm : HoldsMatrix a.lhsMem m (fun w d => L (sr + w) d))
    (hmo : m.order = a.lhs.order) (hmr : m.rows = rs) (hmc : m.cols = depth) (hrs : rs ≤ b.l2_rows) {ps : PackedSide}
    (hds : ps.data.size = b.l2_rows * b.l2_depth) (hss : ps.sums.size = b.l2_rows) :
    ∃ ps', packLhs a.pack a.mode a.k.lhs a.reg (b.side .lhs) a.lhsMem m ps = .ok ps' ∧
      PackedLhsIs a b L depth sr rs ps' := by
  subst hmr; subst hmc
  unfold packLhs PackedLhsIs
  have := packL2_ok (by rw [hmo]; exact hK.packLhs) (mem := a.lhsMem) (ps := ps) (B := fun w d => L (sr + w) d)
    (src := { base := m.base, width := m.rows, depth := m.cols, stride := m.stride
              order := m.order.lhsSide })
    (side_ok hK.wf hb).1 (packRange hb hK hfits).1
    (by
      intro w d hw hd
      have := hm w d hw hd
      rw [← this]
      congr 1
      unfold SideMap.addr MatrixMap.addr SideMap.widthStride SideMap.depthStride
        MatrixMap.rowsStride MatrixMap.colsStride
      dsimp only
      cases m.order <;> rfl)
    hrs
    (by
      show m.cols ≤ b.l2_depth
      rw [hb.l2_depth_eq]; exact le_roundUp hK.wf.lhs.reg_pos _)
    hds hss
  exact this

theorem packRhs_ok (hK : a.Kernel ty N) (hb : b.Good a.k a.reg rows cols depth) {R0 C0 : Nat}
    (hfits : NoOverflow ty a.mode R0 C0 depth LO RO)
    {m : MatrixMap} {sc cs : Nat} (hm : HoldsMatrix a.rhsMem m (fun d w => R d (sc + w)))
    (hmo : m.order = a.rhs.order) (hmc : m.cols = cs) (hmr : m.rows = depth) (hcs : cs ≤ b.l2_cols) {ps : PackedSide}
    (hds : ps.data.size = b.l2_cols * b.l2_depth) (hss : ps.sums.size = b.l2_cols) :
    ∃ ps', packRhs a.pack a.mode a.k.rhs a.reg (b.side .rhs) a.rhsMem m ps = .ok ps' ∧
      PackedRhsIs a b R depth sc cs ps' := by
  subst hmr; subst hmc
  unfold packRhs PackedRhsIs
  have := packL2_ok (by rw [hmo]; exact hK.packRhs) (mem := a.rhsMem) (ps := ps) (B := fun w d => R d (sc + w))
    (src := { base := m.base, width := m.cols, depth := m.rows, stride := m.stride
              order := m.order.rhsSide })
    (side_ok hK.wf hb).2 (packRange hb hK hfits).2
    (by
      intro w d hw hd
      have := hm d w hd hw
      rw [← this]
      congr 1
      unfold SideMap.addr MatrixMap.addr SideMap.widthStride SideMap.depthStride
        MatrixMap.rowsStride MatrixMap.colsStride
      dsimp only
      cases m.order <;> simp only [MapOrder.rhsSide] <;> omega)
    hcs
    (by
      show m.rows ≤ b.l2_depth
      rw [hb.l2_depth_eq]; exact le_roundUp hK.wf.lhs.reg_pos _)
    hds hss
  exact this

theorem holds_block {mem : Mem} {m : MatrixMap} {X : Nat → Nat → UInt8} (h : HoldsMatrix mem m X)
    {r c br bc : Nat} (h1 : r + br ≤ m.rows) (h2 : c + bc ≤ m.cols) :
    ∃ m', m.block r c br bc = .ok m' ∧ m'.rows = br ∧ m'.cols = bc ∧
      HoldsMatrix mem m' (fun i j => X (r + i) (c + j)) ∧ m'.order = m.order := by
  refine ⟨_, MatrixMap.block_ok h1 h2, rfl, rfl, ?_, rfl⟩
  intro i j hi hj
  dsimp only at hi hj
  have := h (r + i) (c + j) (by omega) (by omega)
  rw [← this]
  congr 1
  simp only [MatrixMap.addr, MatrixMap.rowsStride, MatrixMap.colsStride]
  rw [Nat.add_mul, Nat.add_mul]; omega

end
end Gemmlowp
