import Verif.PackAddr
/-!
# Packing lays every coefficient where `packAddr` says and sums every slice

Helper lemmas about the model of internal/pack.h.
-/
namespace Gemmlowp

/-- The map `m` over memory `mem` reads as the matrix `B`. -/
def SrcIs (mem : Mem) (m : SideMap) (B : Nat → Nat → UInt8) : Prop :=
  ∀ w d, w < m.width → d < m.depth → mem (m.addr w d) = some (B w d)

theorem Mem.read_ok {mem : Mem} {a : Nat} {v : UInt8} (h : mem a = some v) :
    mem.read a = .ok v := by simp [Mem.read, h]

theorem SideMap.block_ok {m : SideMap} {sw sd bw bd : Nat} {mem : Mem} {B : Nat → Nat → UInt8}
    (hs : SrcIs mem m B) (h1 : sw + bw ≤ m.width) (h2 : sd + bd ≤ m.depth) :
    ∃ m', m.block sw sd bw bd = .ok m' ∧ m'.width = bw ∧ m'.depth = bd ∧ m'.order = m.order ∧
      SrcIs mem m' (fun w d => B (sw + w) (sd + d)) := by
  refine ⟨{ base := m.addr sw sd, width := bw, depth := bd, stride := m.stride, order := m.order },
    by simp [SideMap.block, h1, h2, pure_ok, ok_bind], rfl, rfl, rfl, ?_⟩
  intro w d hw hd
  dsimp only at hw hd
  have := hs (sw + w) (sd + d) (by omega) (by omega)
  rw [← this]
  congr 1
  simp only [SideMap.addr, SideMap.widthStride, SideMap.depthStride]
  rw [Nat.add_mul, Nat.add_mul]; omega

theorem memcpy_ok {mem : Mem} {srcOff dstOff n : Nat} {b : Buf UInt8} {v : Nat → UInt8}
    (hv : ∀ i, i < n → mem (srcOff + i) = some (v i)) (hb : dstOff + n ≤ b.size) :
    ∃ b', memcpy b dstOff mem srcOff n = .ok b' ∧ b'.size = b.size ∧
      (∀ i, i < n → b'.get (dstOff + i) = v i) ∧
      (∀ j, (j < dstOff ∨ dstOff + n ≤ j) → b'.get j = b.get j) := by
  unfold memcpy
  obtain ⟨b', h1, h2, h3, h4⟩ := forLoop_inv1 (hi := n) (s := b)
    (f := fun i b => do
      let v ← mem.read (srcOff + i)
      b.write (dstOff + i) v)
    (fun k b' => b'.size = b.size ∧ (∀ i, i < k → b'.get (dstOff + i) = v i) ∧
      (∀ j, (j < dstOff ∨ dstOff + k ≤ j) → b'.get j = b.get j))
    ⟨rfl, by intro i hi; omega, fun _ _ => rfl⟩
    (by
      intro k s hk ⟨hs, hg, hf⟩
      refine ⟨s.upd (dstOff + k) (v k), ?_, hs, ?_, ?_⟩
      · rw [Mem.read_ok (hv k hk), ok_bind, Buf.write_ok (by omega)]
      · intro i hi
        rw [Buf.upd_get]
        split
        · have : i = k := by omega
          rw [this]
        · exact hg i (by omega)
      · intro j hj
        rw [Buf.upd_get, if_neg (by omega)]
        exact hf j (by omega))
  exact ⟨b', h1, h2, h3, h4⟩

theorem makeCompleteSrc_ok {f : SideFormat} {reg : Nat} {mem : Mem} {src : SideMap}
    {B : Nat → Nat → UInt8} (hs : SrcIs mem src B) (hw : src.width ≤ f.kw)
    (hd : src.depth ≤ reg) (hreg : 0 < reg) (hkw : 0 < f.kw) :
    ∃ b, makeCompleteSrc f reg mem src = .ok b ∧
      SrcIs b.toMem (completeMap f reg src.order) (fun w d =>
        if w < src.width ∧ d < src.depth then B w d else UInt8.ofNat f.zp) := by
  unfold makeCompleteSrc
  cases ho : src.order
  · -- WidthMajor
    obtain ⟨b, h1, h2, h3⟩ := forLoop_inv1 (hi := src.width)
      (s := ({ size := f.kw * reg, get := fun _ => UInt8.ofNat f.zp } : Buf UInt8))
      (f := fun w b => memcpy b (w * reg) mem (src.addr w 0) src.depth)
      (fun k b => b.size = f.kw * reg ∧ ∀ w d, d < reg → b.get (w * reg + d) =
        if w < k ∧ d < src.depth then B w d else UInt8.ofNat f.zp)
      ⟨rfl, by intro w d _; simp⟩
      (by
        intro k b hk ⟨hb, hg⟩
        have hend : k * reg + src.depth ≤ b.size := by
          have : (k + 1) * reg ≤ f.kw * reg := Nat.mul_le_mul_right _ (by omega)
          rw [Nat.add_mul] at this; omega
        obtain ⟨b', e1, e2, e3, e4⟩ := memcpy_ok (mem := mem) (srcOff := src.addr k 0)
          (dstOff := k * reg) (n := src.depth) (b := b) (v := fun d => B k d)
          (by
            intro i hi
            have := hs k i hk hi
            rw [← this]; congr 1
            simp [SideMap.addr, SideMap.depthStride, ho])
          hend
        refine ⟨b', e1, by omega, ?_⟩
        intro w d hd'
        rcases Nat.lt_trichotomy w k with hlt | heq | hgt
        · rw [e4, hg w d hd']
          · simp [hlt, Nat.lt_succ_of_lt hlt]
          · left
            have : (w + 1) * reg ≤ k * reg := Nat.mul_le_mul_right _ (by omega)
            rw [Nat.add_mul] at this; omega
        · subst heq
          by_cases hdd : d < src.depth
          · rw [e3 d hdd]; simp [hdd]
          · rw [e4 _ (by omega), hg w d hd']; simp [hdd]
        · rw [e4, hg w d hd']
          · have : ¬ w < k + 1 := by omega
            have : ¬ w < k := by omega
            simp [*]
          · right
            have : (k + 1) * reg ≤ w * reg := Nat.mul_le_mul_right _ (by omega)
            rw [Nat.add_mul] at this; omega)
    refine ⟨b, h1, ?_⟩
    intro w d hw' hd'
    simp only [completeMap, SideMap.mk3] at hw' hd'
    have hlt : w * reg + d < b.size := by
      have : (w + 1) * reg ≤ f.kw * reg := Nat.mul_le_mul_right _ (by omega)
      rw [Nat.add_mul] at this; omega
    have ea : (completeMap f reg .widthMajor).addr w d = w * reg + d := by
      simp [completeMap, SideMap.mk3, SideMap.addr, SideMap.widthStride, SideMap.depthStride]
    rw [ea]
    simp only [Buf.toMem, hlt, if_true]
    rw [h3 w d hd']
  · -- DepthMajor
    obtain ⟨b, h1, h2, h3⟩ := forLoop_inv1 (hi := src.depth)
      (s := ({ size := f.kw * reg, get := fun _ => UInt8.ofNat f.zp } : Buf UInt8))
      (f := fun d b => memcpy b (d * f.kw) mem (src.addr 0 d) src.width)
      (fun k b => b.size = f.kw * reg ∧ ∀ w d, w < f.kw → b.get (d * f.kw + w) =
        if w < src.width ∧ d < k then B w d else UInt8.ofNat f.zp)
      ⟨rfl, by intro w d _; simp⟩
      (by
        intro k b hk ⟨hb, hg⟩
        have hend : k * f.kw + src.width ≤ b.size := by
          have : (k + 1) * f.kw ≤ reg * f.kw := Nat.mul_le_mul_right _ (by omega)
          rw [Nat.add_mul] at this
          rw [Nat.mul_comm] at hb; omega
        obtain ⟨b', e1, e2, e3, e4⟩ := memcpy_ok (mem := mem) (srcOff := src.addr 0 k)
          (dstOff := k * f.kw) (n := src.width) (b := b) (v := fun w => B w k)
          (by
            intro i hi
            have := hs i k hi hk
            rw [← this]; congr 1
            simp [SideMap.addr, SideMap.widthStride, ho]; omega)
          hend
        refine ⟨b', e1, by omega, ?_⟩
        intro w d hw'
        rcases Nat.lt_trichotomy d k with hlt | heq | hgt
        · rw [e4, hg w d hw']
          · simp [hlt, Nat.lt_succ_of_lt hlt]
          · left
            have : (d + 1) * f.kw ≤ k * f.kw := Nat.mul_le_mul_right _ (by omega)
            rw [Nat.add_mul] at this; omega
        · subst heq
          by_cases hdd : w < src.width
          · rw [e3 w hdd]; simp [hdd]
          · rw [e4 _ (by omega), hg w d hw']; simp [hdd]
        · rw [e4, hg w d hw']
          · have : ¬ d < k + 1 := by omega
            have : ¬ d < k := by omega
            simp [*]
          · right
            have : (k + 1) * f.kw ≤ d * f.kw := Nat.mul_le_mul_right _ (by omega)
            rw [Nat.add_mul] at this; omega)
    refine ⟨b, h1, ?_⟩
    intro w d hw' hd'
    simp only [completeMap, SideMap.mk3] at hw' hd'
    have hlt : d * f.kw + w < b.size := by
      have : (d + 1) * f.kw ≤ reg * f.kw := Nat.mul_le_mul_right _ (by omega)
      rw [Nat.add_mul] at this
      rw [Nat.mul_comm] at h2; omega
    have ea : (completeMap f reg .depthMajor).addr w d = d * f.kw + w := by
      simp [completeMap, SideMap.mk3, SideMap.addr, SideMap.widthStride, SideMap.depthStride]
      omega
    rw [ea]
    simp only [Buf.toMem, hlt, if_true]
    rw [h3 w d hw']

/-! ## Progress of packing -/

/-- Depths `0 .. n w - 1` of columns `w < W` are in place in `data`. -/
structure DataDone (p : SideParams) (f : SideFormat) (W : Nat) (V : Nat → Nat → Int)
    (n : Nat → Nat) (data : Buf UInt8) : Prop where
  size : data.size = p.l2_width * p.l2_depth
  le : ∀ w, w < W → n w ≤ p.l2_depth
  val : ∀ w d, w < W → d < n w → data.get (packAddr p f w d) = toByte (V w d)

/-- Sums over depths `0 .. n w - 1` of columns `w < W` are in `sums`. -/
structure SumsDone (p : SideParams) (W : Nat) (V : Nat → Nat → Int) (n : Nat → Nat)
    (sums : Buf (BitVec 32)) : Prop where
  size : sums.size = p.l2_width
  val : ∀ w, w < W → sums.get w = BitVec.ofInt 32 (sumTo (n w) (V w))

theorem DataDone.congr {p f W V n n' data} (h : DataDone p f W V n data)
    (e : ∀ w, w < W → n' w = n w) : DataDone p f W V n' data :=
  ⟨h.size, fun w hw => by rw [e w hw]; exact h.le w hw,
    fun w d hw hd => h.val w d hw (by rw [← e w hw]; exact hd)⟩

theorem SumsDone.congr {p W V n n' sums} (h : SumsDone p W V n sums)
    (e : ∀ w, w < W → n' w = n w) : SumsDone p W V n' sums :=
  ⟨h.size, fun w hw => by rw [e w hw]; exact h.val w hw⟩

theorem DataDone.step {p f reg W V n data} (hp : p.Ok f reg) (hW : W ≤ p.l2_width)
    (h : DataDone p f W V n data) {w d : Nat} (hw : w < W) (hd : d < p.l2_depth) (hn : n w = d) :
    DataDone p f W V (fun x => if x = w then d + 1 else n x)
      (data.upd (packAddr p f w d) (toByte (V w d))) := by
  refine ⟨h.size, ?_, ?_⟩
  · intro x hx
    split
    · omega
    · exact h.le x hx
  · intro x y hx hy
    rw [Buf.upd_get]
    have hy2 : y < p.l2_depth := by
      split at hy
      · omega
      · have := h.le x hx; omega
    split
    · rename_i he
      obtain ⟨rfl, rfl⟩ := packAddr_inj hp (by omega) hy2 (by omega) hd he
      rfl
    · rename_i hne
      apply h.val x y hx
      split at hy
      · rename_i hxw
        subst hxw
        have : y ≠ d := by intro hyd; subst hyd; exact hne rfl
        omega
      · exact hy

/-- Range hypothesis of `trap` mode for packing: slice sums cannot overflow. -/
def PackRange (mode : OvMode) (p : SideParams) : Prop :=
  mode = .trap → 255 * (p.l2_depth : Int) ≤ 2147483647

theorem sum_in_range {mode : OvMode} {p : SideParams} (hr : PackRange mode p)
    {g : Nat → Int} (hg : ∀ d, -255 ≤ g d ∧ g d ≤ 255) {n : Nat} (hn : n ≤ p.l2_depth)
    (hm : mode = .trap) : InI32 (sumTo n g) := by
  have h1 := hr hm
  have h2 := sumTo_bound (n := n) (f := g) (B := 255) (fun i _ => hg i)
  unfold InI32; omega

/-- Position of the cursor at width `sw`, `e` deep into depth block number `a`. -/
def posIn (p : SideParams) (f : SideFormat) (sw a e : Nat) : Nat :=
  p.l2_width * (p.l1_depth * a) + sw * runLen p a + f.kw * e

theorem cellAddr_eq {p : SideParams} {f : SideFormat} {reg : Nat} (hp : p.Ok f reg)
    {sw a e k j : Nat} (hsw : f.kw ∣ sw) (he : reg ∣ e) (hj : j < f.cells)
    (hlt : e + f.cd * k < p.l1_depth) :
    cellAddr p f (sw + f.cw * j) (p.l1_depth * a + e + f.cd * k) =
      posIn p f sw a e + (k * f.cells + j) * f.cellSize := by
  obtain ⟨b, rfl⟩ := hsw
  obtain ⟨c, hc⟩ : f.cd ∣ e := Nat.dvd_trans hp.wf.cd_dvd he
  have hjk : f.cw * j < f.kw := Nat.mul_lt_mul_of_pos_left hj hp.wf.cw_pos
  have q1 : (p.l1_depth * a + e + f.cd * k) / p.l1_depth = a := by
    rw [Nat.add_assoc, Nat.mul_add_div hp.l1d_pos, Nat.div_eq_of_lt hlt]; rfl
  have q2 : (p.l1_depth * a + e + f.cd * k) % p.l1_depth = e + f.cd * k := by
    rw [Nat.add_assoc, Nat.mul_add_mod]; exact Nat.mod_eq_of_lt hlt
  have q3 : (f.kw * b + f.cw * j) / f.kw = b := by
    rw [Nat.mul_add_div hp.wf.kw_pos, Nat.div_eq_of_lt hjk]; rfl
  have q4 : (f.kw * b + f.cw * j) % f.kw = f.cw * j := by
    rw [Nat.mul_add_mod]; exact Nat.mod_eq_of_lt hjk
  have q5 : (e + f.cd * k) / f.cd = c + k := by
    rw [hc, ← Nat.mul_add, Nat.mul_div_cancel_left _ hp.wf.cd_pos]
  have q6 : f.cw * j / f.cw = j := Nat.mul_div_cancel_left _ hp.wf.cw_pos
  unfold cellAddr posIn
  rw [q1, q2, q3, q4, q5, q6, hc]
  have e1 : ((c + k) * f.cells + j) * f.cellSize =
      f.kw * (f.cd * c) + (k * f.cells + j) * f.cellSize := by
    unfold SideFormat.cellSize SideFormat.kw
    simp only [Nat.add_mul]
    have : c * f.cells * (f.cw * f.cd) = f.cw * f.cells * (f.cd * c) := by
      simp only [Nat.mul_left_comm, Nat.mul_comm]
    omega
  rw [e1]; omega

end Gemmlowp
