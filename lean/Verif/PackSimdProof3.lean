import Verif.PackSimdProof2
import Verif.MsaProof
/-!
# Packing with vector instructions has the effect of the generic packing: whole blocks, NEON and MSA
-/
namespace Gemmlowp.PackSimd

open Vec (VReg ofH ofS ofD s_ofS h_ofH s_ofD h_of_s signExtend_add_low)

section
variable {f : SideFormat} {B : Nat → Nat → UInt8}

/-! ## Cells of 4x2 -/

theorem packCells4x2_effect {zip : VReg → VReg → Nat → VReg} {off : Nat → Nat → Nat}
    {halves : Nat → (Nat → VReg) → Buf UInt8 × Nat → M (Buf UInt8 × Nat)}
    {sumsOf : (Nat → Nat → VReg) → Nat → VReg} (hz : ZipOk zip off) (hh : HalvesOk halves)
    (hS : SumsOk sumsOf off) (hf : f.WF 16) (hcw : f.cw = 4) (hcd : f.cd = 2)
    (hu : f.scalar = .uint8) (ho : ∀ w d, w < 4 → d < 2 → cellOff f w d = off w d) {mem : Mem}
    {src : SideMap} {sw : Nat} {ps : PackedSide} (hord : src.order = .widthMajor)
    (hs : SrcIs mem src B) (hw : src.width = f.kw) (hd : src.depth = 16)
    (hdata : ps.pos + f.kw * 16 ≤ ps.data.size) (hsums : sw + f.kw ≤ ps.sums.size) :
    ∃ ps', packCells4x2 zip halves sumsOf f 16 mem src sw ps = .ok ps' ∧
      BlockEffect f 16 B sw ps ps' := by
  have hkw : f.kw = 4 * f.cells := by unfold SideFormat.kw; rw [hcw]
  have hc := hf.cells_pos
  have hcs : f.cellSize = 8 := by unfold SideFormat.cellSize; rw [hcw, hcd]
  obtain ⟨lines, e1, hl⟩ := loadLines_ok hs hord (n := 4 * f.cells) (by omega) (by omega)
  obtain ⟨data', e2, w2⟩ := storeCells_ok hh hc (x4 := intertwined4x zip lines) (data := ps.data)
    (dst := ps.pos) (by omega)
  obtain ⟨sums', e3, s1, s2, s3⟩ := updateSums_ok (cells := f.cells) (sw := sw)
    (s := sumsOf (intertwined4x zip lines)) (sums := ps.sums) (by omega)
  refine ⟨{ data := data', sums := sums', pos := ps.pos + f.cells * 16 / 2 * 8 }, ?_, ?_⟩
  · unfold packCells4x2
    rw [e1, ok_bind]
    dsimp only
    rw [e2, ok_bind, e3, ok_bind]
    rfl
  refine ⟨w2.size, s1, ?_, ?_, ?_, ?_, ?_⟩
  · intro w d hw' hd'
    dsimp only
    unfold blockOff
    rw [hcs, hcw, hcd, ho _ _ (Nat.mod_lt _ (by omega)) (Nat.mod_lt _ (by omega))]
    have hlt : off (w % 4) (d % 2) < 8 := by
      rw [← ho _ _ (Nat.mod_lt _ (by omega)) (Nat.mod_lt _ (by omega)), ← hcs]
      exact cellOff_lt hf (by rw [hcw]; omega) (by rw [hcd]; omega)
    have hx : d / 2 * f.cells ≤ 7 * f.cells := Nat.mul_le_mul_right _ (by omega)
    rw [w2.get, if_pos (by omega), Nat.add_sub_cancel_left]
    unfold cellStream
    have e8 : ((d / 2 * f.cells + w / 4) * 8 + off (w % 4) (d % 2)) / 8 = d / 2 * f.cells + w / 4 := by
      omega
    have m8 : ((d / 2 * f.cells + w / 4) * 8 + off (w % 4) (d % 2)) % 8 = off (w % 4) (d % 2) := by
      omega
    rw [e8, m8, Nat.mul_comm (d / 2), Nat.mul_add_mod, Nat.mul_add_div hc,
      Nat.mod_eq_of_lt (show w / 4 < f.cells by omega), Nat.div_eq_of_lt (show w / 4 < f.cells by omega),
      Nat.add_zero, hz lines (w / 4) (d / 2) (w % 4) (d % 2) (by omega) (by omega) (by omega),
      show 4 * (w / 4) + w % 4 = w by omega, show 2 * (d / 2) + d % 2 = d by omega,
      hl w d (by omega) hd', toByte_u8 hu, ofBitVec_toBitVec]
  · intro a ha
    dsimp only
    rw [w2.get, if_neg (by omega)]
  · intro w hw'
    dsimp only
    have := s2 (w / 4) (w % 4) (by omega) (by omega)
    rw [show 4 * (w / 4) + w % 4 = w by omega] at this
    rw [this, hS _ (w / 4) (w % 4) (fun d => B w d) (by omega) ?_]
    · simp only [unwrap_u8 hu]
    · intro p d hp hd'
      rw [hz lines (w / 4) p (w % 4) d hp (by omega) hd', show 4 * (w / 4) + w % 4 = w by omega,
        hl w _ (by omega) (by omega)]
  · intro a ha
    exact s3 a (by omega)
  · dsimp only
    omega

/-! ## One cell of depth 16 of int8 -/

theorem flip_16 : ∀ x : BitVec 8, (x ^^^ 0x80#8).signExtend 16 = BitVec.ofInt 16 ((x.toNat : Int) - 128) := by
  decide +kernel

theorem toByte_flip {f : SideFormat} (h : f.scalar = .int8) (b : UInt8) :
    UInt8.ofBitVec (b.toBitVec ^^^ 0x80#8) = toByte (f.unwrap b) := by
  have key : ∀ x : BitVec 8, (x ^^^ 0x80#8).toNat = (((x.toNat : Int) - 128) % 256).toNat := by
    decide +kernel
  apply UInt8.toNat_inj.1
  unfold toByte SideFormat.unwrap SideFormat.zp SideFormat.input
  rw [h, UInt8.toNat_ofNat']
  show (b.toBitVec ^^^ 0x80#8).toNat = _
  rw [key, toNat_toBitVec]
  simp only [InputScalar.val]
  omega

theorem ofInt_add16 (a b : Int) : BitVec.ofInt 16 a + BitVec.ofInt 16 b = BitVec.ofInt 16 (a + b) :=
  (BitVec.ofInt_add a b).symm

theorem ofInt_add32 (a b : Int) : BitVec.ofInt 32 a + BitVec.ofInt 32 b = BitVec.ofInt 32 (a + b) :=
  (BitVec.ofInt_add a b).symm

theorem s16_32 {n : Int} (h : -32768 ≤ n ∧ n < 32768) :
    (BitVec.ofInt 16 n).signExtend 32 = BitVec.ofInt 32 n := by
  unfold BitVec.signExtend
  congr 1
  rw [BitVec.toInt_ofInt, Int.bmod_def]
  split <;> omega

theorem low16 (n : Int) : (BitVec.ofInt 32 n).extractLsb' 0 16 = BitVec.ofInt 16 n := by
  apply BitVec.eq_of_toNat_eq
  rw [BitVec.extractLsb'_toNat, BitVec.toNat_ofInt, BitVec.toNat_ofInt]
  simp only [Nat.shiftRight_zero]
  omega

/-- The sum of row `w` as the code adds it up. -/
def Rows (n : Nat) (lines : Nat → VReg) (S : Nat → Nat → Int) : Prop :=
  ∀ w i, w < n → i < 16 → (lines w i).signExtend 16 = BitVec.ofInt 16 (S w i) ∧
    -128 ≤ S w i ∧ S w i ≤ 127

def Sums16Ok (sumsOf : OvMode → Nat → (Nat → VReg) → Nat → Buf (BitVec 32) → M (Buf (BitVec 32))) :
    Prop :=
  ∀ mode n (lines : Nat → VReg) (S : Nat → Nat → Int) sp (sums : Buf (BitVec 32)), (n = 2 ∨ n = 4) →
    Rows n lines S → sp + n ≤ sums.size →
    (mode = .trap → ∀ w, w < n → InI32 ((sums.get (sp + w)).toInt + sumTo 16 (S w))) →
    ∃ sums', sumsOf mode n lines sp sums = .ok sums' ∧ sums'.size = sums.size ∧
      (∀ w, w < n → sums'.get (sp + w) = sums.get (sp + w) + BitVec.ofInt 32 (sumTo 16 (S w))) ∧
      ∀ a, (a < sp ∨ sp + n ≤ a) → sums'.get a = sums.get a

def PaddOk (padd : VReg → VReg → VReg) : Prop :=
  ∀ a b i, (padd a b).h i =
    if i < 4 then a.h (2 * i) + a.h (2 * i + 1) else b.h (2 * (i - 4)) + b.h (2 * (i - 4) + 1)

theorem vpaddq_ok : PaddOk vpaddq_s16 := fun a b i => by unfold vpaddq_s16; rw [h_ofH]

theorem h_combine (a b : VReg) (i : Nat) :
    (vcombine_s16 a b).h i = if i < 4 then a.h i else b.h (i - 4) := by
  unfold vcombine_s16 VReg.h
  dsimp only
  by_cases h : i < 4
  · rw [if_pos h, if_pos (by omega), if_pos (by omega)]
  · rw [if_neg h, if_neg (by omega), if_neg (by omega), show 2 * i + 1 - 8 = 2 * (i - 4) + 1 by omega,
      show 2 * i - 8 = 2 * (i - 4) by omega]

theorem vpadd_self (a : VReg) (i : Nat) :
    (vpadd_s16 a (vget_high a)).h i = a.h (2 * i) + a.h (2 * i + 1) := by
  unfold vpadd_s16
  rw [h_ofH]
  by_cases h : i < 2
  · rw [if_pos h]
  · rw [if_neg h, h_high, h_high, show 4 + 2 * (i - 2) = 2 * i by omega,
      show 4 + (2 * (i - 2) + 1) = 2 * i + 1 by omega]

/-- internal/pack_neon.h:249-255 does what the instruction of 64-bit ARM does. -/
theorem vpaddq_32_ok : PaddOk vpaddq_s16_32 := by
  intro a b i
  unfold vpaddq_s16_32
  dsimp only
  rw [h_combine, vpadd_self, vpadd_self]

/-- Lane `i` of the sums of a row by eight lanes. -/
theorem sums2_h {n : Nat} {lines : Nat → VReg} {S : Nat → Nat → Int} (h : Rows n lines S) {w i : Nat}
    (hw : w < n) (hi : i < 8) : (vaddl_s8 (lines w) (vget_high (lines w))).h i =
      BitVec.ofInt 16 (S w i + S w (8 + i)) := by
  unfold vaddl_s8 vget_high
  rw [h_ofH, (h w i hw (by omega)).1, (h w (8 + i) hw (by omega)).1, ofInt_add16]

/-- The sum of the sums of eight lanes. -/
theorem row_sum {n : Nat} {lines : Nat → VReg} {S : Nat → Nat → Int} (h : Rows n lines S) {w : Nat}
    (hw : w < n) {x : BitVec 32} {a b : Int}
    (ha : a = S w 0 + S w 1 + S w 2 + S w 3 + S w 8 + S w 9 + S w 10 + S w 11)
    (hb : b = S w 4 + S w 5 + S w 6 + S w 7 + S w 12 + S w 13 + S w 14 + S w 15)
    (hx : x = (BitVec.ofInt 16 a).signExtend 32 + (BitVec.ofInt 16 b).signExtend 32) :
    x = BitVec.ofInt 32 (sumTo 16 (S w)) := by
  have k := fun i hi => (h w i hw hi).2
  have k0 := k 0 (by omega); have k1 := k 1 (by omega); have k2 := k 2 (by omega)
  have k3 := k 3 (by omega); have k4 := k 4 (by omega); have k5 := k 5 (by omega)
  have k6 := k 6 (by omega); have k7 := k 7 (by omega); have k8 := k 8 (by omega)
  have k9 := k 9 (by omega); have k10 := k 10 (by omega); have k11 := k 11 (by omega)
  have k12 := k 12 (by omega); have k13 := k 13 (by omega); have k14 := k 14 (by omega)
  have k15 := k 15 (by omega)
  rw [hx, s16_32 (by omega), s16_32 (by omega), ofInt_add32]
  congr 1
  simp only [sumTo]
  omega

/-- Four lanes of a row. -/
def quad (S : Nat → Nat → Int) (w i : Nat) : Int :=
  S w (2 * i) + S w (8 + 2 * i) + (S w (2 * i + 1) + S w (8 + (2 * i + 1)))

theorem padd_lo {padd : VReg → VReg → VReg} (hp : PaddOk padd) {n : Nat} {lines : Nat → VReg}
    {S : Nat → Nat → Int} (h : Rows n lines S) {w : Nat} {b : VReg} {i : Nat} (hw : w < n) (hi : i < 4) :
    (padd (vaddl_s8 (lines w) (vget_high (lines w))) b).h i = BitVec.ofInt 16 (quad S w i) := by
  rw [hp, if_pos hi, sums2_h h hw (by omega), sums2_h h hw (by omega), ofInt_add16]; rfl

theorem padd_hi {padd : VReg → VReg → VReg} (hp : PaddOk padd) {n : Nat} {lines : Nat → VReg}
    {S : Nat → Nat → Int} (h : Rows n lines S) {w : Nat} {b : VReg} {i : Nat} (hw : w < n) (hi : i < 4) :
    (padd b (vaddl_s8 (lines w) (vget_high (lines w)))).h (4 + i) = BitVec.ofInt 16 (quad S w i) := by
  rw [hp, if_neg (by omega), Nat.add_sub_cancel_left, sums2_h h hw (by omega), sums2_h h hw (by omega),
    ofInt_add16]; rfl

theorem neonSums16_ok {padd : VReg → VReg → VReg} (hp : PaddOk padd) :
    Sums16Ok fun _ => neonSums16 padd := by
  intro mode n lines S sp sums hn hR hsz _
  unfold neonSums16
  dsimp only
  rcases hn with rfl | rfl
  · rw [if_neg (by omega), if_pos rfl, loadWords_ok hsz, ok_bind]
    obtain ⟨sums', e, h1, h2, h3⟩ := storeWords_ok (b := sums) (a := sp) (n := 2) (v := vpadalq_s16
      (ofS fun i => sums.get (sp + i)) (vpadd_s16 (padd (vaddl_s8 (lines (2 * 0)) (vget_high (lines (2 * 0))))
        (vaddl_s8 (lines (2 * 0 + 1)) (vget_high (lines (2 * 0 + 1)))))
        (vget_high (padd (vaddl_s8 (lines (2 * 0)) (vget_high (lines (2 * 0))))
        (vaddl_s8 (lines (2 * 0 + 1)) (vget_high (lines (2 * 0 + 1)))))))) hsz
    refine ⟨sums', e, h1, fun w hw => ?_, h3⟩
    rw [h2 w hw]
    unfold vpadalq_s16
    rw [s_ofS, s_ofS]
    congr 1
    simp only [vpadd_self]
    interval_cases w
    · simp only [Nat.mul_zero, Nat.zero_add, Nat.reduceMul, Nat.reduceAdd]
      rw [padd_lo hp hR (by omega) (by omega), padd_lo hp hR (by omega) (by omega),
        padd_lo hp hR (by omega) (by omega), padd_lo hp hR (by omega) (by omega), ofInt_add16, ofInt_add16]
      refine row_sum hR (w := 0) (by omega) ?_ ?_ rfl <;> simp only [quad, Nat.reduceMul, Nat.reduceAdd, Nat.mul_zero, Nat.zero_add, Nat.add_zero, Nat.mul_one] <;> omega
    · simp only [Nat.mul_zero, Nat.zero_add, Nat.reduceMul, Nat.reduceAdd, Nat.mul_one]
      rw [padd_hi hp hR (i := 0) (by omega) (by omega), padd_hi hp hR (i := 1) (by omega) (by omega),
        padd_hi hp hR (i := 2) (by omega) (by omega), padd_hi hp hR (i := 3) (by omega) (by omega),
        ofInt_add16, ofInt_add16]
      refine row_sum hR (w := 1) (by omega) ?_ ?_ rfl <;> simp only [quad, Nat.reduceMul, Nat.reduceAdd, Nat.mul_zero, Nat.zero_add, Nat.add_zero, Nat.mul_one] <;> omega
  · rw [if_pos rfl, loadWords_ok hsz, ok_bind]
    obtain ⟨sums', e, h1, h2, h3⟩ := storeWords_ok (b := sums) (a := sp) (n := 4) (v := vpadalq_s16
      (ofS fun i => sums.get (sp + i)) (padd (padd (vaddl_s8 (lines (2 * 0)) (vget_high (lines (2 * 0))))
        (vaddl_s8 (lines (2 * 0 + 1)) (vget_high (lines (2 * 0 + 1)))))
        (padd (vaddl_s8 (lines (2 * 1)) (vget_high (lines (2 * 1))))
        (vaddl_s8 (lines (2 * 1 + 1)) (vget_high (lines (2 * 1 + 1))))))) hsz
    refine ⟨sums', e, h1, fun w hw => ?_, h3⟩
    rw [h2 w hw]
    unfold vpadalq_s16
    rw [s_ofS, s_ofS]
    congr 1
    have hp' := fun X Y i => hp (padd (vaddl_s8 (lines 0) (vget_high (lines 0))) X)
      (padd (vaddl_s8 (lines 2) (vget_high (lines 2))) Y) i
    simp only [Nat.mul_zero, Nat.zero_add, Nat.mul_one, hp']
    interval_cases w
    · simp only [Nat.mul_zero, Nat.zero_add, Nat.reduceMul, Nat.reduceAdd, Nat.reduceLT, if_true]
      rw [padd_lo hp hR (by omega) (by omega), padd_lo hp hR (by omega) (by omega),
        padd_lo hp hR (by omega) (by omega), padd_lo hp hR (by omega) (by omega), ofInt_add16, ofInt_add16]
      refine row_sum hR (w := 0) (by omega) ?_ ?_ rfl <;> simp only [quad, Nat.reduceMul, Nat.reduceAdd, Nat.mul_zero, Nat.zero_add, Nat.add_zero, Nat.mul_one] <;> omega
    · simp only [Nat.mul_one, Nat.reduceMul, Nat.reduceAdd, Nat.reduceLT, if_true]
      rw [padd_hi hp hR (i := 0) (by omega) (by omega), padd_hi hp hR (i := 1) (by omega) (by omega),
        padd_hi hp hR (i := 2) (by omega) (by omega), padd_hi hp hR (i := 3) (by omega) (by omega),
        ofInt_add16, ofInt_add16]
      refine row_sum hR (w := 1) (by omega) ?_ ?_ rfl <;> simp only [quad, Nat.reduceMul, Nat.reduceAdd, Nat.mul_zero, Nat.zero_add, Nat.add_zero, Nat.mul_one] <;> omega
    · simp only [Nat.reduceMul, Nat.reduceAdd, Nat.reduceLT, if_false, Nat.reduceSub, Nat.mul_zero,
        Nat.zero_add, Nat.mul_one]
      rw [padd_lo hp hR (by omega) (by omega), padd_lo hp hR (by omega) (by omega),
        padd_lo hp hR (by omega) (by omega), padd_lo hp hR (by omega) (by omega), ofInt_add16, ofInt_add16]
      refine row_sum hR (w := 2) (by omega) ?_ ?_ rfl <;> simp only [quad, Nat.reduceMul, Nat.reduceAdd, Nat.mul_zero, Nat.zero_add, Nat.add_zero, Nat.mul_one] <;> omega
    · simp only [Nat.reduceMul, Nat.reduceAdd, Nat.reduceLT, if_false, Nat.reduceSub]
      rw [padd_hi hp hR (i := 0) (by omega) (by omega), padd_hi hp hR (i := 1) (by omega) (by omega),
        padd_hi hp hR (i := 2) (by omega) (by omega), padd_hi hp hR (i := 3) (by omega) (by omega),
        ofInt_add16, ofInt_add16]
      refine row_sum hR (w := 3) (by omega) ?_ ?_ rfl <;> simp only [quad, Nat.reduceMul, Nat.reduceAdd, Nat.mul_zero, Nat.zero_add, Nat.add_zero, Nat.mul_one] <;> omega

/-! MSA -/

theorem msa2_h {n : Nat} {lines : Nat → VReg} {S : Nat → Nat → Int} (h : Rows n lines S) {w i : Nat}
    (hw : w < n) (hi : i < 8) : (hadd_s_h (lines w) (lines w)).h i =
      BitVec.ofInt 16 (S w (2 * i + 1) + S w (2 * i)) := by
  unfold hadd_s_h
  rw [h_ofH, (h w _ hw (by omega)).1, (h w _ hw (by omega)).1, ofInt_add16]

/-- Four lanes of a row. -/
def quadM (S : Nat → Nat → Int) (w i : Nat) : Int :=
  S w (2 * (2 * i + 1) + 1) + S w (2 * (2 * i + 1)) + (S w (2 * (2 * i) + 1) + S w (2 * (2 * i)))

theorem msa4_h {n : Nat} {lines : Nat → VReg} {S : Nat → Nat → Int} (h : Rows n lines S) {w i : Nat}
    (hw : w < n) (hi : i < 4) :
    (hadd_s_w (hadd_s_h (lines w) (lines w)) (hadd_s_h (lines w) (lines w))).h (2 * i) =
      BitVec.ofInt 16 (quadM S w i) := by
  have k := fun i hi => (h w i hw hi).2
  have k0 := k (2 * (2 * i + 1) + 1) (by omega)
  have k1 := k (2 * (2 * i + 1)) (by omega)
  have k2 := k (2 * (2 * i) + 1) (by omega)
  have k3 := k (2 * (2 * i)) (by omega)
  rw [(h_of_s _ _).2]
  unfold hadd_s_w
  rw [s_ofS, msa2_h h hw (by omega), msa2_h h hw (by omega), s16_32 (by omega), s16_32 (by omega),
    ofInt_add32, low16]
  rfl

theorem quadM_bound {n : Nat} {lines : Nat → VReg} {S : Nat → Nat → Int} (h : Rows n lines S) {w i : Nat}
    (hw : w < n) (hi : i < 4) : -512 ≤ quadM S w i ∧ quadM S w i ≤ 508 := by
  have k := fun i hi => (h w i hw hi).2
  have k0 := k (2 * (2 * i + 1) + 1) (by omega)
  have k1 := k (2 * (2 * i + 1)) (by omega)
  have k2 := k (2 * (2 * i) + 1) (by omega)
  have k3 := k (2 * (2 * i)) (by omega)
  unfold quadM
  omega

/-- Two lanes of the sums of four. -/
theorem msa8_s {n : Nat} {lines : Nat → VReg} {S : Nat → Nat → Int} (h : Rows n lines S) {i l w : Nat}
    (hw : w < n) (hl : l < 4) (hwl : w = 2 * i + l / 2) :
    let w4 : Nat → VReg := fun i =>
      hadd_s_w (hadd_s_h (lines i) (lines i)) (hadd_s_h (lines i) (lines i))
    let q : VReg := pckev_h (w4 (2 * i + 1)) (w4 (2 * i))
    (hadd_s_w q q).s l = BitVec.ofInt 32 (quadM S w (2 * (l % 2) + 1) + quadM S w (2 * (l % 2))) := by
  intro w4 q
  have e : ∀ m, m < 4 → q.h (4 * (l / 2) + m) = BitVec.ofInt 16 (quadM S w m) := by
    intro m hm
    show (pckev_h (w4 (2 * i + 1)) (w4 (2 * i))).h _ = _
    unfold pckev_h
    rw [h_ofH]
    by_cases h2 : l < 2
    · have hl2 : l / 2 = 0 := by omega
      rw [hl2, if_pos (by omega), Nat.mul_zero, Nat.zero_add]
      rw [hl2, Nat.add_zero] at hwl
      subst hwl
      exact msa4_h h hw hm
    · have hl2 : l / 2 = 1 := by omega
      rw [hl2, if_neg (by omega), Nat.mul_one, Nat.add_sub_cancel_left]
      rw [hl2] at hwl
      subst hwl
      exact msa4_h h hw hm
  unfold hadd_s_w
  have b1 := quadM_bound h hw (i := 2 * (l % 2) + 1) (by omega)
  have b2 := quadM_bound h hw (i := 2 * (l % 2)) (by omega)
  rw [s_ofS, show 2 * l + 1 = 4 * (l / 2) + (2 * (l % 2) + 1) by omega,
    show 2 * l = 4 * (l / 2) + 2 * (l % 2) by omega, e _ (by omega), e _ (by omega), s16_32 (by omega),
    s16_32 (by omega), ofInt_add32]

theorem quadM_sum (S : Nat → Nat → Int) (w : Nat) :
    quadM S w 3 + quadM S w 2 + (quadM S w 1 + quadM S w 0) = sumTo 16 (S w) := by
  simp only [quadM, sumTo, Nat.reduceMul, Nat.reduceAdd, Nat.mul_zero, Nat.zero_add]
  omega

theorem pckev_h_h (a b : VReg) (i : Nat) :
    (pckev_h a b).h i = if i < 4 then b.h (2 * i) else a.h (2 * (i - 4)) := by
  unfold pckev_h; rw [h_ofH]

/-- `sums8` of the code for four columns. -/
def msaSums8 (lines : Nat → VReg) : VReg :=
  let w4 : Nat → VReg := fun i => hadd_s_w (hadd_s_h (lines i) (lines i)) (hadd_s_h (lines i) (lines i))
  let q : Nat → VReg := fun i => pckev_h (w4 (2 * i + 1)) (w4 (2 * i))
  pckev_h (hadd_s_w (q 1) (q 1)) (hadd_s_w (q 0) (q 0))

theorem msaSums16_ok : Sums16Ok msaSums16 := by
  intro mode n lines S sp sums hn hR hsz hfit
  unfold msaSums16
  dsimp only
  rcases hn with rfl | rfl
  · rw [if_neg (by omega), if_pos rfl, Buf.read_ok (by omega), ok_bind, Buf.read_ok (by omega), ok_bind]
    have e : ∀ w, w < 2 → ∀ v : VReg,
        (∀ l, l < 4 → l / 2 = w → v.s l = BitVec.ofInt 32 (quadM S w (2 * (l % 2) + 1) + quadM S w (2 * (l % 2)))) →
        (hadd_s_d v v).s (2 * w) = BitVec.ofInt 32 (sumTo 16 (S w)) := by
      intro w hw v hv
      unfold hadd_s_d
      rw [s_ofD, signExtend_add_low, hv (2 * w + 1) (by omega) (by omega), hv (2 * w) (by omega) (by omega),
        ofInt_add32, ← quadM_sum, show 2 * ((2 * w + 1) % 2) = 2 by omega, show 2 * (2 * w % 2) = 0 by omega]
    have e0 := e 0 (by omega) _ fun l hl hl2 => msa8_s hR (i := 0) (l := l) (w := 0) (by omega) hl (by omega)
    have e1 := e 1 (by omega) _ fun l hl hl2 => msa8_s hR (i := 0) (l := l) (w := 1) (by omega) hl (by omega)
    have hB : ∀ w, w < 2 → InI32 (sumTo 16 (S w)) := by
      intro w hw
      have b0 := quadM_bound hR hw (i := 0) (by omega)
      have b1 := quadM_bound hR hw (i := 1) (by omega)
      have b2 := quadM_bound hR hw (i := 2) (by omega)
      have b3 := quadM_bound hR hw (i := 3) (by omega)
      rw [← quadM_sum]
      unfold InI32
      omega
    dsimp only [Nat.reduceMul] at e0 e1
    rw [e0, e1, add32_fit (a := sums.get sp) fun hm => ⟨hB 0 (by omega), hfit hm 0 (by omega)⟩, ok_bind,
      add32_fit fun hm => ⟨hB 1 (by omega), hfit hm 1 (by omega)⟩, ok_bind,
      Buf.write_ok (by omega), ok_bind, Buf.write_ok (by show _ < sums.size; omega)]
    refine ⟨_, rfl, rfl, ?_, ?_⟩
    · intro w hw
      show (if _ then _ else if _ then _ else _) = _
      interval_cases w
      · rw [if_neg (by omega), if_pos (by omega)]; rfl
      · rw [if_pos rfl]
    · intro a ha
      show (if _ then _ else if _ then _ else _) = _
      rw [if_neg (by omega), if_neg (by omega)]
  · rw [if_pos rfl, loadWords_ok hsz, ok_bind]
    obtain ⟨V, hV⟩ : ∃ V : VReg, V = msaSums8 lines := ⟨_, rfl⟩
    have hV' : ∀ w m, w < 4 → m < 2 →
        V.h (2 * w + m) = BitVec.ofInt 16 (quadM S w (2 * m + 1) + quadM S w (2 * m)) := by
      intro w m hw hm
      rw [hV]
      unfold msaSums8
      rw [pckev_h_h]
      by_cases h2 : w < 2
      · rw [if_pos (by omega), (h_of_s _ _).2]
        have := msa8_s hR (i := 0) (w := w) (l := 2 * w + m) (by omega) (by omega) (by omega)
        dsimp only at this ⊢
        rw [this, low16,
          show (2 * w + m) % 2 = m by omega]
      · rw [if_neg (by omega), (h_of_s _ _).2]
        have := msa8_s hR (i := 1) (w := w) (l := 2 * w + m - 4) (by omega) (by omega) (by omega)
        dsimp only at this ⊢
        rw [this, low16,
          show (2 * w + m - 4) % 2 = m by omega]
    obtain ⟨sums', e, h1, h2, h3⟩ := storeWords_ok (b := sums) (a := sp) (n := 4)
      (v := add_epi32 (ofS fun i => sums.get (sp + i)) (hadd_s_w V V)) hsz
    refine ⟨sums', by rw [hV] at e; exact e, h1, fun w hw => ?_, h3⟩
    rw [h2 w hw]
    unfold add_epi32 hadd_s_w
    have b0 := quadM_bound hR hw (i := 0) (by omega)
    have b1 := quadM_bound hR hw (i := 1) (by omega)
    have b2 := quadM_bound hR hw (i := 2) (by omega)
    have b3 := quadM_bound hR hw (i := 3) (by omega)
    rw [s_ofS, s_ofS, s_ofS, hV' w 1 hw (by omega), ← Nat.add_zero (2 * w), hV' w 0 hw (by omega),
      ← quadM_sum, s16_32 (by simp only [Nat.reduceMul, Nat.reduceAdd]; omega),
      s16_32 (by simp only [Nat.mul_zero, Nat.zero_add]; omega), ofInt_add32]

theorem storeLines_ok {lines : Nat → VReg} {n dst : Nat} {data : Buf UInt8} (h : dst + 16 * n ≤ data.size) :
    ∃ d', storeLines lines n dst data = .ok d' ∧
      Wrote data dst (16 * n) (fun j => lines (j / 16) (j % 16)) d' := by
  unfold storeLines
  obtain ⟨d', e, w⟩ := forLoop_inv1 (hi := n) (s := data)
    (f := fun i data => storeBytes data (dst + 16 * i) 16 (lines i))
    (fun k d => Wrote data dst (16 * k) (fun j => lines (j / 16) (j % 16)) d)
    (Wrote.nil _ _ _)
    (by
      intro k d hk hw
      obtain ⟨d', e, w⟩ := storeBytes_ok (b := d) (a := dst + 16 * k) (n := 16) (v := lines k)
        (by rw [hw.size]; omega)
      refine ⟨d', e, ?_⟩
      rw [Nat.mul_add]
      refine hw.append w (fun _ _ => rfl) fun j hj => ?_
      rw [show (16 * k + j) / 16 = k by omega, show (16 * k + j) % 16 = j by omega])
  exact ⟨d', e, w⟩

theorem packInt8_effect
    {sumsOf : OvMode → Nat → (Nat → VReg) → Nat → Buf (BitVec 32) → M (Buf (BitVec 32))}
    (hS : Sums16Ok sumsOf) {mode : OvMode} (hcw : f.cw = 2 ∨ f.cw = 4) (hcd : f.cd = 16)
    (ho : f.order = .widthMajor) (hc : f.cells = 1) (hu : f.scalar = .int8) {mem : Mem}
    {src : SideMap} {sw : Nat} {ps : PackedSide} (hord : src.order = .widthMajor)
    (hs : SrcIs mem src B) (hw : src.width = f.kw) (hd : src.depth = 16)
    (hdata : ps.pos + f.kw * 16 ≤ ps.data.size) (hsums : sw + f.kw ≤ ps.sums.size)
    (hfit : SumsFit mode f 16 sw ps.sums) :
    ∃ ps', packInt8 sumsOf mode f mem src sw ps = .ok ps' ∧ BlockEffect f 16 B sw ps ps' := by
  have hkw : f.kw = f.cw := by unfold SideFormat.kw; rw [hc, Nat.mul_one]
  have hcs : f.cellSize = 16 * f.cw := by unfold SideFormat.cellSize; rw [hcd, Nat.mul_comm]
  have hun : ∀ b : UInt8, f.unwrap b = (b.toNat : Int) - 128 := by
    intro b; unfold SideFormat.unwrap SideFormat.zp SideFormat.input; rw [hu]; rfl
  obtain ⟨lines, e1, hl⟩ := loadLines_ok hs hord (n := f.cw) (by omega) (by omega)
  obtain ⟨data', e2, w2⟩ := storeLines_ok (lines := fun i => eor80 (lines i)) (n := f.cw)
    (dst := ps.pos) (data := ps.data) (by omega)
  have hR : Rows f.cw (fun i => eor80 (lines i)) (fun w d => f.unwrap (B w d)) := by
    intro w i hw' hi
    have := (B w i).toNat_lt
    refine ⟨?_, ?_, ?_⟩
    · show (lines w i ^^^ 0x80#8).signExtend 16 = _
      rw [hl w i hw' hi, flip_16, toNat_toBitVec]; simp only [hun]
    · simp only [hun]; omega
    · simp only [hun]; omega
  obtain ⟨sums', e3, s1, s2, s3⟩ := hS mode f.cw _ _ sw ps.sums hcw hR (by omega)
    (by
      intro hm w hw'
      have h1 := hfit hm w (by omega)
      have h2 := unwrap_sum_bound (f := f) 16 (fun d => B w d)
      unfold InI32
      omega)
  refine ⟨{ data := data', sums := sums', pos := ps.pos + 1 * f.cellSize }, ?_, ?_⟩
  · unfold packInt8
    rw [e1, ok_bind]
    dsimp only
    rw [e2, ok_bind, e3, ok_bind]
    rfl
  refine ⟨w2.size, s1, ?_, ?_, ?_, ?_, ?_⟩
  · intro w d hw' hd'
    dsimp only
    have hb : blockOff f w d = 16 * w + d := by
      unfold blockOff cellOff
      rw [ho, hcd, hcs, Nat.div_eq_of_lt (show w < f.cw by omega), Nat.mod_eq_of_lt (show w < f.cw by omega),
        Nat.div_eq_of_lt hd', Nat.mod_eq_of_lt hd']
      simp only
      omega
    rw [hb, w2.get, if_pos (by omega), Nat.add_sub_cancel_left, show (16 * w + d) / 16 = w by omega,
      show (16 * w + d) % 16 = d by omega]
    show UInt8.ofBitVec (lines w d ^^^ 0x80#8) = _
    rw [hl w d (by omega) hd', toByte_flip hu]
  · intro a ha
    dsimp only
    rw [w2.get, if_neg (by omega)]
  · intro w hw'
    exact s2 w (by omega)
  · intro a ha
    exact s3 a (by omega)
  · dsimp only
    omega

theorem unwrap_s8 (h : f.scalar = .int8Inputs) (b : UInt8) : f.unwrap b = InputScalar.int8.val b := by
  unfold SideFormat.unwrap SideFormat.zp SideFormat.input; rw [h]; exact Int.sub_zero _

theorem sign_16 (b : UInt8) : b.toBitVec.signExtend 16 = BitVec.ofInt 16 (InputScalar.int8.val b) := by
  have key : ∀ x : BitVec 8, x.signExtend 16 =
      BitVec.ofInt 16 (if x.toNat < 128 then (x.toNat : Int) else (x.toNat : Int) - 256) := by decide +kernel
  exact key b.toBitVec

theorem toByte_s8 (h : f.scalar = .int8Inputs) (b : UInt8) :
    UInt8.ofBitVec b.toBitVec = toByte (f.unwrap b) := by
  have key : ∀ x : BitVec 8, x.toNat =
      ((if x.toNat < 128 then (x.toNat : Int) else (x.toNat : Int) - 256) % 256).toNat := by decide +kernel
  rw [unwrap_s8 h]
  apply UInt8.toNat_inj.1
  unfold toByte
  rw [UInt8.toNat_ofNat']
  have := key b.toBitVec
  have := b.toNat_lt
  show b.toBitVec.toNat = ((if b.toBitVec.toNat < 128 then (b.toBitVec.toNat : Int)
    else (b.toBitVec.toNat : Int) - 256) % 256).toNat % 2 ^ 8
  rw [← key b.toBitVec, toNat_toBitVec]
  omega

theorem packInt8Inputs_effect
    {sumsOf : OvMode → Nat → (Nat → VReg) → Nat → Buf (BitVec 32) → M (Buf (BitVec 32))}
    (hS : Sums16Ok sumsOf) {mode : OvMode} (hcw : f.cw = 2 ∨ f.cw = 4) (hcd : f.cd = 16)
    (ho : f.order = .widthMajor) (hc : f.cells = 1) (hu : f.scalar = .int8Inputs) {mem : Mem}
    {src : SideMap} {sw : Nat} {ps : PackedSide} (hord : src.order = .widthMajor)
    (hs : SrcIs mem src B) (hw : src.width = f.kw) (hd : src.depth = 16)
    (hdata : ps.pos + f.kw * 16 ≤ ps.data.size) (hsums : sw + f.kw ≤ ps.sums.size)
    (hfit : SumsFit mode f 16 sw ps.sums) :
    ∃ ps', packInt8Inputs sumsOf mode f mem src sw ps = .ok ps' ∧ BlockEffect f 16 B sw ps ps' := by
  have hkw : f.kw = f.cw := by unfold SideFormat.kw; rw [hc, Nat.mul_one]
  have hcs : f.cellSize = 16 * f.cw := by unfold SideFormat.cellSize; rw [hcd, Nat.mul_comm]
  have hun : ∀ b : UInt8, f.unwrap b = InputScalar.int8.val b := unwrap_s8 hu
  obtain ⟨lines, e1, hl⟩ := loadLines_ok hs hord (n := f.cw) (by omega) (by omega)
  obtain ⟨data', e2, w2⟩ := storeLines_ok (lines := lines) (n := f.cw)
    (dst := ps.pos) (data := ps.data) (by omega)
  have hR : Rows f.cw lines (fun w d => f.unwrap (B w d)) := by
    intro w i hw' hi
    have h8 : (-128 : Int) ≤ InputScalar.int8.val (B w i) ∧ InputScalar.int8.val (B w i) ≤ 127 :=
      InputScalar.int8.val_bound (B w i)
    refine ⟨?_, ?_, ?_⟩
    · rw [hl w i hw' hi, sign_16]; simp only [hun]
    · simp only [hun]; omega
    · simp only [hun]; omega
  obtain ⟨sums', e3, s1, s2, s3⟩ := hS mode f.cw _ _ sw ps.sums hcw hR (by omega)
    (by
      intro hm w hw'
      have h1 := hfit hm w (by omega)
      have h2 := unwrap_sum_bound (f := f) 16 (fun d => B w d)
      unfold InI32
      omega)
  refine ⟨{ data := data', sums := sums', pos := ps.pos + 1 * f.cellSize }, ?_, ?_⟩
  · unfold packInt8Inputs
    rw [e1, ok_bind, e2, ok_bind, e3, ok_bind]
    rfl
  refine ⟨w2.size, s1, ?_, ?_, ?_, ?_, ?_⟩
  · intro w d hw' hd'
    dsimp only
    have hb : blockOff f w d = 16 * w + d := by
      unfold blockOff cellOff
      rw [ho, hcd, hcs, Nat.div_eq_of_lt (show w < f.cw by omega), Nat.mod_eq_of_lt (show w < f.cw by omega),
        Nat.div_eq_of_lt hd', Nat.mod_eq_of_lt hd']
      simp only
      omega
    rw [hb, w2.get, if_pos (by omega), Nat.add_sub_cancel_left, show (16 * w + d) / 16 = w by omega,
      show (16 * w + d) % 16 = d by omega]
    rw [hl w d (by omega) hd', toByte_s8 hu]
  · intro a ha
    dsimp only
    rw [w2.get, if_neg (by omega)]
  · intro w hw'
    exact s2 w (by omega)
  · intro a ha
    exact s3 a (by omega)
  · dsimp only
    omega

/-! ## The packing routines -/

theorem isDepthMajor4x2_iff {src : SideMap} : isDepthMajor4x2 f src = true ↔
    src.order = .widthMajor ∧ f.cw = 4 ∧ f.cd = 2 ∧ f.order = .depthMajor ∧ f.scalar = .uint8 := by
  unfold isDepthMajor4x2
  simp only [Bool.and_eq_true, beq_iff_eq, and_assoc]

theorem isInt8Fast_iff {src : SideMap} : isInt8Fast f src = true ↔
    src.order = .widthMajor ∧ f.cd = 16 ∧ f.order = .widthMajor ∧ f.cells = 1 ∧ f.scalar = .int8 := by
  unfold isInt8Fast
  simp only [Bool.and_eq_true, beq_iff_eq, and_assoc]

theorem isInt8InputsFast_iff {src : SideMap} : isInt8InputsFast f src = true ↔
    src.order = .widthMajor ∧ f.cd = 16 ∧ f.order = .widthMajor ∧ f.cells = 1 ∧ f.scalar = .int8Inputs := by
  unfold isInt8InputsFast
  simp only [Bool.and_eq_true, beq_iff_eq, and_assoc]

theorem cellOff_dm (h : f.order = .depthMajor) (hcw : f.cw = 4) (w d : Nat) :
    cellOff f w d = 4 * d + w := by
  unfold cellOff; rw [h]; simp only [hcw]; omega

/-- The `static_assert`s of internal/pack_neon.h:268 and internal/pack_msa.h:362 on the formats that
use the packing of int8 cells: without them the code does not compile. -/
def Int8Widths (f : SideFormat) : Prop :=
  f.cd = 16 → f.order = .widthMajor → f.cells = 1 → f.scalar = .int8 → f.cw = 2 ∨ f.cw = 4

instance (f : SideFormat) : Decidable (Int8Widths f) := by unfold Int8Widths; infer_instance

theorem neonPacker_meets (arm32 : Bool) (mode : OvMode) (hf : f.WF 16) (hin : f.input = .uint8) (hi : Int8Widths f) :
    PackerMeets (neonPacker arm32) mode f 16 := by
  intro o mem src B sw ps hs hor hw hd hdata hsums hfit
  unfold neonPacker
  by_cases h1 : isDepthMajor4x2 f src = true
  · rw [if_pos h1]
    obtain ⟨h1, h2, h3, h4, h5⟩ := isDepthMajor4x2_iff.1 h1
    exact packCells4x2_effect zip8_ok neonStoreHalves_ok neonSumsDepth_ok hf h2 h3 h5
      (fun w d _ _ => cellOff_dm h4 h2 w d) h1 hs hw hd hdata hsums
  rw [if_neg h1]
  by_cases h2 : isWidthMajor2 4 f src = true
  · rw [if_pos h2]
    obtain ⟨h1, h2, h3, h4, h5⟩ := isWidthMajor2_iff.1 h2
    exact packCells4x2_effect zip16_ok neonStoreHalves_ok neonSumsWidth_ok hf h2 h3 h5
      (fun w d _ _ => cellOff_wm h4 h3 w d) h1 hs hw hd hdata hsums
  rw [if_neg h2]
  by_cases h3 : isInt8Fast f src = true
  · rw [if_pos h3]
    obtain ⟨h1, h2, h3, h4, h5⟩ := isInt8Fast_iff.1 h3
    have hp : PaddOk (if arm32 then vpaddq_s16_32 else vpaddq_s16) := by
      cases arm32
      · exact vpaddq_ok
      · exact vpaddq_32_ok
    exact packInt8_effect (neonSums16_ok hp) (hi h2 h3 h4 h5) h2 h3 h4 h5 h1 hs hw hd hdata hsums hfit
  · rw [if_neg h3, if_neg (by
      rw [isInt8InputsFast_iff]
      rintro ⟨-, -, -, -, h⟩
      unfold SideFormat.input at hin
      rw [h] at hin
      exact absurd hin (by decide))]
    exact packBlock_meets mode hf hin o mem src B sw ps hs hor hw hd hdata hsums hfit

/-- The packing of int8 inputs, which exists for NEON and for sources in width-major order only; the widths
are those of the `static_assert` at internal/pack_neon.h:332. -/
theorem neonPacker_meets_int8 (arm32 : Bool) (mode : OvMode) (hcw : f.cw = 2 ∨ f.cw = 4) (hcd : f.cd = 16)
    (ho : f.order = .widthMajor) (hc : f.cells = 1) (hu : f.scalar = .int8Inputs) :
    PackerMeetsFor (neonPacker arm32) mode f 16 .widthMajor := by
  intro mem src B sw ps hs hor hw hd hdata hsums hfit
  unfold neonPacker
  rw [if_neg (by rw [isDepthMajor4x2_iff]; rintro ⟨-, -, -, -, h⟩; exact absurd (hu.symm.trans h) (by decide)),
    if_neg (by rw [isWidthMajor2_iff]; rintro ⟨-, -, -, -, h⟩; exact absurd (hu.symm.trans h) (by decide)),
    if_neg (by rw [isInt8Fast_iff]; rintro ⟨-, -, -, -, h⟩; exact absurd (hu.symm.trans h) (by decide)),
    if_pos (isInt8InputsFast_iff.2 ⟨hor, hcd, ho, hc, hu⟩)]
  have hp : PaddOk (if arm32 then vpaddq_s16_32 else vpaddq_s16) := by
    cases arm32
    · exact vpaddq_ok
    · exact vpaddq_32_ok
  exact packInt8Inputs_effect (neonSums16_ok hp) hcw hcd ho hc hu hor hs hw hd hdata hsums hfit

theorem msaPacker_meets (mode : OvMode) (hf : f.WF 16) (hin : f.input = .uint8) (hi : Int8Widths f) :
    PackerMeets msaPacker mode f 16 := by
  intro o mem src B sw ps hs hor hw hd hdata hsums hfit
  unfold msaPacker
  by_cases h1 : isDepthMajor4x2 f src = true
  · rw [if_pos h1]
    obtain ⟨h1, h2, h3, h4, h5⟩ := isDepthMajor4x2_iff.1 h1
    exact packCells4x2_effect zip8_ok msaStoreHalves_ok msaSumsDepth_ok hf h2 h3 h5
      (fun w d _ _ => cellOff_dm h4 h2 w d) h1 hs hw hd hdata hsums
  rw [if_neg h1]
  by_cases h2 : isWidthMajor2 4 f src = true
  · rw [if_pos h2]
    obtain ⟨h1, h2, h3, h4, h5⟩ := isWidthMajor2_iff.1 h2
    exact packCells4x2_effect zip16_ok msaStoreHalves_ok msaSumsWidth_ok hf h2 h3 h5
      (fun w d _ _ => cellOff_wm h4 h3 w d) h1 hs hw hd hdata hsums
  rw [if_neg h2]
  by_cases h3 : isInt8Fast f src = true
  · rw [if_pos h3]
    obtain ⟨h1, h2, h3, h4, h5⟩ := isInt8Fast_iff.1 h3
    exact packInt8_effect msaSums16_ok (hi h2 h3 h4 h5) h2 h3 h4 h5 h1 hs hw hd hdata hsums hfit
  · rw [if_neg h3]
    exact packBlock_meets mode hf hin o mem src B sw ps hs hor hw hd hdata hsums hfit

end

end Gemmlowp.PackSimd
