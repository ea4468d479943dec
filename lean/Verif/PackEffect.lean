import Verif.PackProof
/-!
# What packing a register-size block does

The effect that every specialisation of `PackingRegisterBlock::Pack` is meant to have, that the
generic one has it, and what it means for the packed block as a whole.
-/
namespace Gemmlowp

/-- Where in a packed register-size block the coefficient at width `w`, depth `d` lies: the cells of
the first depths come first, among these the cells of the first widths. -/
def blockOff (f : SideFormat) (w d : Nat) : Nat :=
  (d / f.cd * f.cells + w / f.cw) * f.cellSize + cellOff f (w % f.cw) (d % f.cd)

/-- The value a kernel is to see for the source byte `b`. -/
def SideFormat.unwrap (f : SideFormat) (b : UInt8) : Int := f.input.val b - f.zp

theorem SideFormat.unwrap_uint8 {f : SideFormat} (h : f.input = .uint8) (b : UInt8) :
    f.unwrap b = (b.toNat : Int) - f.zp := by
  unfold SideFormat.unwrap; rw [h]; rfl

/-- Packing the `kw × reg` source `B` at column `sw`: each coefficient is in its place at the cursor,
its sum over the depths has been added (modulo 2^32) to the sum of its column, the cursor is behind
the block, and nothing else has changed. -/
structure BlockEffect (f : SideFormat) (reg : Nat) (B : Nat → Nat → UInt8) (sw : Nat)
    (ps ps' : PackedSide) : Prop where
  dataSize : ps'.data.size = ps.data.size
  sumsSize : ps'.sums.size = ps.sums.size
  data : ∀ w d, w < f.kw → d < reg →
    ps'.data.get (ps.pos + blockOff f w d) = toByte (f.unwrap (B w d))
  dataRest : ∀ a, (a < ps.pos ∨ ps.pos + f.kw * reg ≤ a) → ps'.data.get a = ps.data.get a
  sums : ∀ w, w < f.kw → ps'.sums.get (sw + w) =
    ps.sums.get (sw + w) + BitVec.ofInt 32 (sumTo reg fun d => f.unwrap (B w d))
  sumsRest : ∀ a, (a < sw ∨ sw + f.kw ≤ a) → ps'.sums.get a = ps.sums.get a
  pos : ps'.pos = ps.pos + f.kw * reg

/-- With the C++ rule for overflow: no sum of a column leaves the range of int32. -/
def SumsFit (mode : OvMode) (f : SideFormat) (reg sw : Nat) (sums : Buf (BitVec 32)) : Prop :=
  mode = .trap → ∀ w, w < f.kw →
    -2147483648 ≤ (sums.get (sw + w)).toInt - 255 * reg ∧
      (sums.get (sw + w)).toInt + 255 * reg ≤ 2147483647

/-- A packing routine does what it is meant to do for sides of format `f` and sources in order `o`, whatever
the source and the state of the packed block, provided there is room. -/
def PackerMeetsFor (pb : BlockPacker) (mode : OvMode) (f : SideFormat) (reg : Nat) (o : SideMapOrder) : Prop :=
  ∀ (mem : Mem) (src : SideMap) (B : Nat → Nat → UInt8) (sw : Nat) (ps : PackedSide),
    SrcIs mem src B → src.order = o → src.width = f.kw → src.depth = reg →
    ps.pos + f.kw * reg ≤ ps.data.size → sw + f.kw ≤ ps.sums.size →
    SumsFit mode f reg sw ps.sums →
    ∃ ps', pb mode f reg mem src sw ps = .ok ps' ∧ BlockEffect f reg B sw ps ps'

/-- The same for sources in any order. -/
def PackerMeets (pb : BlockPacker) (mode : OvMode) (f : SideFormat) (reg : Nat) : Prop :=
  ∀ o, PackerMeetsFor pb mode f reg o

/-! ## Progress -/

section
variable {f : SideFormat} {B : Nat → Nat → UInt8}

/-- The cells in `S` are in place, nothing else has changed. -/
structure CellsDone (f : SideFormat) (B : Nat → Nat → UInt8) (p0 : Nat) (data0 : Buf UInt8)
    (S : Nat → Prop) (data : Buf UInt8) : Prop where
  size : data.size = data0.size
  done : ∀ c w d, S c → w < f.cw → d < f.cd → data.get (p0 + c * f.cellSize + cellOff f w d) =
    toByte (f.unwrap (B (f.cw * (c % f.cells) + w) (f.cd * (c / f.cells) + d)))
  rest : ∀ a, (∀ c, S c → a < p0 + c * f.cellSize ∨ p0 + c * f.cellSize + f.cellSize ≤ a) →
    data.get a = data0.get a

/-- The sums of the columns cover the depths below `n`, nothing else has changed. -/
structure SumsAt (f : SideFormat) (B : Nat → Nat → UInt8) (sw kw : Nat) (sums0 : Buf (BitVec 32))
    (n : Nat → Nat) (sums : Buf (BitVec 32)) : Prop where
  size : sums.size = sums0.size
  val : ∀ w, w < kw → sums.get (sw + w) =
    sums0.get (sw + w) + BitVec.ofInt 32 (sumTo (n w) fun d => f.unwrap (B w d))
  rest : ∀ a, (a < sw ∨ sw + kw ≤ a) → sums.get a = sums0.get a

theorem CellsDone.init (p0 : Nat) (data0 : Buf UInt8) {S : Nat → Prop} (hS : ∀ c, ¬ S c) :
    CellsDone f B p0 data0 S data0 :=
  ⟨rfl, fun c _ _ h => absurd h (hS c), fun _ _ => rfl⟩

theorem CellsDone.congr {p0 : Nat} {data0 data : Buf UInt8} {S T : Nat → Prop}
    (h : CellsDone f B p0 data0 S data) (e : ∀ c, S c ↔ T c) : CellsDone f B p0 data0 T data :=
  ⟨h.size, fun c w d hc => h.done c w d ((e c).2 hc),
    fun a ha => h.rest a fun c hc => ha c ((e c).1 hc)⟩

theorem cell_apart {c c' s : Nat} (h : c ≠ c') : c * s + s ≤ c' * s ∨ c' * s + s ≤ c * s := by
  rcases Nat.lt_or_gt_of_ne h with h | h
  · left
    have := Nat.mul_le_mul_right s (show c + 1 ≤ c' from h)
    rw [Nat.add_mul, Nat.one_mul] at this; exact this
  · right
    have := Nat.mul_le_mul_right s (show c' + 1 ≤ c from h)
    rw [Nat.add_mul, Nat.one_mul] at this; exact this

theorem CellsDone.step {reg : Nat} (hf : f.WF reg) {p0 : Nat} {data0 data data' : Buf UInt8}
    {S : Nat → Prop} (h : CellsDone f B p0 data0 S data) {c : Nat} (hsz : data'.size = data.size)
    (hin : ∀ w d, w < f.cw → d < f.cd → data'.get (p0 + c * f.cellSize + cellOff f w d) =
      toByte (f.unwrap (B (f.cw * (c % f.cells) + w) (f.cd * (c / f.cells) + d))))
    (hout : ∀ a, (a < p0 + c * f.cellSize ∨ p0 + c * f.cellSize + f.cellSize ≤ a) →
      data'.get a = data.get a) :
    CellsDone f B p0 data0 (fun x => S x ∨ x = c) data' := by
  refine ⟨hsz.trans h.size, ?_, ?_⟩
  · intro x w d hx hw hd
    by_cases hxc : x = c
    · subst hxc; exact hin w d hw hd
    · have hS : S x := hx.resolve_right hxc
      have h1 := cellOff_lt hf hw hd
      rw [hout _ ?_, h.done x w d hS hw hd]
      have := cell_apart (s := f.cellSize) hxc
      omega
  · intro a ha
    rw [hout a (ha c (Or.inr rfl)), h.rest a fun x hx => ha x (Or.inl hx)]

theorem SumsAt.init (sw kw : Nat) (sums0 : Buf (BitVec 32)) {n : Nat → Nat} (hn : ∀ w, n w = 0) :
    SumsAt f B sw kw sums0 n sums0 :=
  ⟨rfl, fun w _ => by rw [hn w]; simp, fun _ _ => rfl⟩

theorem SumsAt.congr {sw kw : Nat} {sums0 sums : Buf (BitVec 32)} {n m : Nat → Nat}
    (h : SumsAt f B sw kw sums0 n sums) (e : ∀ w, w < kw → m w = n w) :
    SumsAt f B sw kw sums0 m sums :=
  ⟨h.size, fun w hw => by rw [e w hw]; exact h.val w hw, h.rest⟩

/-- The sums of columns `[w0, w0 + k)` are increased by the next `t` depths. -/
theorem SumsAt.step {sw kw : Nat} {sums0 sums sums' : Buf (BitVec 32)} {n : Nat → Nat}
    (h : SumsAt f B sw kw sums0 n sums) {w0 k t : Nat} (hk : w0 + k ≤ kw)
    (hsz : sums'.size = sums.size)
    (hin : ∀ i, i < k → sums'.get (sw + (w0 + i)) = sums.get (sw + (w0 + i)) +
      BitVec.ofInt 32 (sumTo t fun d => f.unwrap (B (w0 + i) (n (w0 + i) + d))))
    (hout : ∀ a, (a < sw + w0 ∨ sw + w0 + k ≤ a) → sums'.get a = sums.get a) :
    SumsAt f B sw kw sums0 (fun w => if w0 ≤ w ∧ w < w0 + k then n w + t else n w) sums' := by
  refine ⟨hsz.trans h.size, ?_, ?_⟩
  · intro w hw
    by_cases hx : w0 ≤ w ∧ w < w0 + k
    · rw [if_pos hx]
      have := hin (w - w0) (by omega)
      rw [show w0 + (w - w0) = w by omega] at this
      rw [this, h.val w hw, sumTo_split, BitVec.ofInt_add, BitVec.add_assoc]
    · rw [if_neg hx, hout _ (by omega), h.val w hw]
  · intro a ha
    rw [hout a (by omega), h.rest a ha]

/-- All cells done and all sums complete: the effect of packing a block. -/
theorem effect_of_done {reg : Nat} (hf : f.WF reg) {sw : Nat} {ps ps' : PackedSide}
    (hD : CellsDone f B ps.pos ps.data (fun c => c < reg / f.cd * f.cells) ps'.data)
    (hS : SumsAt f B sw f.kw ps.sums (fun _ => reg) ps'.sums)
    (hp : ps'.pos = ps.pos + f.kw * reg) : BlockEffect f reg B sw ps ps' := by
  obtain ⟨K, hK⟩ := hf.cd_dvd
  have hdiv : reg / f.cd = K := by rw [hK, Nat.mul_div_cancel_left _ hf.cd_pos]
  have hsize : K * f.cells * f.cellSize = f.kw * reg := by
    rw [hK]; unfold SideFormat.cellSize SideFormat.kw
    simp only [Nat.mul_left_comm, Nat.mul_comm]
  refine ⟨hD.size, hS.size, ?_, ?_, hS.val, hS.rest, hp⟩
  · intro w d hw hd
    have hw1 : w / f.cw < f.cells := by
      rw [Nat.div_lt_iff_lt_mul hf.cw_pos, Nat.mul_comm]; exact hw
    have hd1 : d / f.cd < K := by
      rw [Nat.div_lt_iff_lt_mul hf.cd_pos, Nat.mul_comm, ← hK]; exact hd
    have hc : d / f.cd * f.cells + w / f.cw < reg / f.cd * f.cells := by
      have := mixed_lt hw1 hd1
      rw [hdiv, Nat.mul_comm K]; omega
    have h := hD.done _ (w % f.cw) (d % f.cd) hc (Nat.mod_lt _ hf.cw_pos) (Nat.mod_lt _ hf.cd_pos)
    have m1 : (d / f.cd * f.cells + w / f.cw) % f.cells = w / f.cw := by
      rw [Nat.mul_comm, Nat.mul_add_mod]; exact Nat.mod_eq_of_lt hw1
    have m2 : (d / f.cd * f.cells + w / f.cw) / f.cells = d / f.cd := by
      rw [Nat.mul_comm, Nat.mul_add_div hf.cells_pos, Nat.div_eq_of_lt hw1]; rfl
    rw [m1, m2, Nat.div_add_mod, Nat.div_add_mod] at h
    rw [← h, blockOff, Nat.add_assoc]
  · intro a ha
    apply hD.rest
    intro c hc
    have := Nat.mul_le_mul_right f.cellSize (show c + 1 ≤ reg / f.cd * f.cells from hc)
    rw [hdiv, hsize, Nat.add_mul, Nat.one_mul] at this
    omega

/-- Every byte of a cell belongs to a coefficient. -/
theorem cellOff_surj {reg : Nat} (hf : f.WF reg) {o : Nat} (ho : o < f.cellSize) :
    ∃ w d, w < f.cw ∧ d < f.cd ∧ cellOff f w d = o := by
  unfold SideFormat.cellSize at ho
  unfold cellOff
  cases hord : f.order <;> simp only
  · exact ⟨o % f.cw, o / f.cw, Nat.mod_lt _ hf.cw_pos,
      by rw [Nat.div_lt_iff_lt_mul hf.cw_pos, Nat.mul_comm]; exact ho, by
        rw [Nat.mul_comm]; exact Nat.mod_add_div _ _⟩
  · exact ⟨o / f.cd, o % f.cd, by rw [Nat.div_lt_iff_lt_mul hf.cd_pos]; exact ho,
      Nat.mod_lt _ hf.cd_pos, by rw [Nat.mul_comm]; exact Nat.mod_add_div _ _⟩
  · have hs := hf.diag hord
    rw [← hs] at ho ⊢
    have hd : o % f.cw < f.cw := Nat.mod_lt _ hf.cw_pos
    have hq : o / f.cw < f.cw := by rw [Nat.div_lt_iff_lt_mul hf.cw_pos]; exact ho
    have he := Nat.div_add_mod o f.cw
    rw [Nat.mul_comm] at he
    generalize o / f.cw = q at *
    generalize o % f.cw = r at *
    have hlt : (if q + r < f.cw then q + r else q + r - f.cw) < f.cw := by split <;> omega
    refine ⟨if q + r < f.cw then q + r else q + r - f.cw, r, hlt, hd, ?_⟩
    rw [diag_eq hlt hd]
    by_cases h : q + r < f.cw
    · rw [if_pos h, if_neg (by omega), Nat.add_sub_cancel]; exact he
    · rw [if_neg h, if_pos (by omega), show f.cw + (q + r - f.cw) - r = q by omega]; exact he

/-- Every byte of a packed block belongs to a coefficient. -/
theorem blockOff_surj {reg : Nat} (hf : f.WF reg) {x : Nat} (hx : x < f.kw * reg) :
    ∃ w d, w < f.kw ∧ d < reg ∧ blockOff f w d = x := by
  obtain ⟨K, hK⟩ := hf.cd_dvd
  have hcs : 0 < f.cellSize := Nat.mul_pos hf.cw_pos hf.cd_pos
  have hsize : f.kw * reg = K * f.cells * f.cellSize := by
    rw [hK]; unfold SideFormat.cellSize SideFormat.kw
    simp only [Nat.mul_left_comm, Nat.mul_comm]
  obtain ⟨w, d, hw, hd, ho⟩ := cellOff_surj hf (Nat.mod_lt x hcs)
  have hc : x / f.cellSize < K * f.cells := by
    rw [Nat.div_lt_iff_lt_mul hcs, ← hsize]; exact hx
  have hq : x / f.cellSize / f.cells < K := by
    rw [Nat.div_lt_iff_lt_mul hf.cells_pos]; exact hc
  have hr : x / f.cellSize % f.cells < f.cells := Nat.mod_lt _ hf.cells_pos
  refine ⟨f.cw * (x / f.cellSize % f.cells) + w, f.cd * (x / f.cellSize / f.cells) + d, ?_, ?_, ?_⟩
  · have := Nat.mul_le_mul_left f.cw (show x / f.cellSize % f.cells + 1 ≤ f.cells from hr)
    rw [Nat.mul_add] at this
    unfold SideFormat.kw; omega
  · have := Nat.mul_le_mul_left f.cd (show x / f.cellSize / f.cells + 1 ≤ K from hq)
    rw [Nat.mul_add] at this
    rw [hK]; omega
  · unfold blockOff
    rw [Nat.mul_add_mod, Nat.mul_add_mod, Nat.mod_eq_of_lt hw, Nat.mod_eq_of_lt hd, ho,
      Nat.mul_add_div hf.cd_pos, Nat.mul_add_div hf.cw_pos, Nat.div_eq_of_lt hw, Nat.div_eq_of_lt hd,
      Nat.add_zero, Nat.add_zero, Nat.mul_comm (x / f.cellSize / f.cells), Nat.div_add_mod,
      Nat.mul_comm, Nat.div_add_mod]

/-- The effect determines the result. -/
theorem BlockEffect.unique {reg sw : Nat} (hf : f.WF reg) {ps p1 p2 : PackedSide}
    (h1 : BlockEffect f reg B sw ps p1) (h2 : BlockEffect f reg B sw ps p2) : p1 = p2 := by
  obtain ⟨d1, s1, q1⟩ := p1
  obtain ⟨d2, s2, q2⟩ := p2
  have hq : q1 = q2 := h1.pos.trans h2.pos.symm
  have hd : d1 = d2 := by
    obtain ⟨n1, g1⟩ := d1
    obtain ⟨n2, g2⟩ := d2
    have hn : n1 = n2 := h1.dataSize.trans h2.dataSize.symm
    have hg : g1 = g2 := by
      funext a
      by_cases ha : a < ps.pos ∨ ps.pos + f.kw * reg ≤ a
      · exact (h1.dataRest a ha).trans (h2.dataRest a ha).symm
      · obtain ⟨w, d, hw, hd, e⟩ := blockOff_surj (x := a - ps.pos) hf (by omega)
        have e1 := h1.data w d hw hd
        have e2 := h2.data w d hw hd
        rw [show ps.pos + blockOff f w d = a by omega] at e1 e2
        exact e1.trans e2.symm
    rw [hn, hg]
  have hs : s1 = s2 := by
    obtain ⟨n1, g1⟩ := s1
    obtain ⟨n2, g2⟩ := s2
    have hn : n1 = n2 := h1.sumsSize.trans h2.sumsSize.symm
    have hg : g1 = g2 := by
      funext a
      by_cases ha : a < sw ∨ sw + f.kw ≤ a
      · exact (h1.sumsRest a ha).trans (h2.sumsRest a ha).symm
      · have e1 := h1.sums (a - sw) (by omega)
        have e2 := h2.sums (a - sw) (by omega)
        rw [show sw + (a - sw) = a by omega] at e1 e2
        exact e1.trans e2.symm
    rw [hn, hg]
  rw [hd, hs, hq]

/-! ## The generic packing has the effect -/

theorem unwrap_bound (f : SideFormat) (b : UInt8) : -255 ≤ f.unwrap b ∧ f.unwrap b ≤ 255 := by
  unfold SideFormat.unwrap SideFormat.zp
  have := InputScalar.val_bound f.input b
  revert this
  unfold SideFormat.input InputScalar.lo InputScalar.hi
  cases f.scalar <;> simp only <;> omega

theorem unwrap_sum_bound (n : Nat) (g : Nat → UInt8) :
    -(255 * (n : Int)) ≤ sumTo n (fun d => f.unwrap (g d)) ∧
      sumTo n (fun d => f.unwrap (g d)) ≤ 255 * n := by
  have := sumTo_bound (n := n) (f := fun d => f.unwrap (g d)) (B := 255) (fun i _ => unwrap_bound f _)
  rw [Int.mul_comm] at this; exact this

theorem add32_fit {mode : OvMode} {a : BitVec 32} {x : Int}
    (h : mode = .trap → InI32 x ∧ InI32 (a.toInt + x)) :
    add32 mode a (BitVec.ofInt 32 x) = .ok (a + BitVec.ofInt 32 x) := by
  have e : a = BitVec.ofInt 32 a.toInt := (ofInt_toInt32 a).symm
  have ha : InI32 a.toInt := by
    have h1 := a.toInt_lt
    have h2 := a.le_toInt
    unfold InI32; omega
  conv => lhs; rw [e]
  rw [add32_ofInt (fun hm => ⟨ha, (h hm).1, (h hm).2⟩), BitVec.ofInt_add, ← e]

theorem packCell_effect {mode : OvMode} {reg : Nat} (hf : f.WF reg) (hu : f.input = .uint8) {mem : Mem} {cell : SideMap}
    {C : Nat → Nat → UInt8} (hc : SrcIs mem cell C) (hcw : cell.width = f.cw)
    (hcd : cell.depth = f.cd) {dst sp : Nat} {ps : PackedSide}
    (hd : dst + f.cellSize ≤ ps.data.size) (hs : sp + f.cw ≤ ps.sums.size)
    (hr : mode = .trap → ∀ w, w < f.cw →
      -2147483648 ≤ (ps.sums.get (sp + w)).toInt - 255 * f.cd ∧
        (ps.sums.get (sp + w)).toInt + 255 * f.cd ≤ 2147483647) :
    ∃ ps', packCell mode f mem cell dst sp ps = .ok ps' ∧ ps'.pos = ps.pos ∧
      ps'.data.size = ps.data.size ∧ ps'.sums.size = ps.sums.size ∧
      (∀ w d, w < f.cw → d < f.cd →
        ps'.data.get (dst + cellOff f w d) = toByte (f.unwrap (C w d))) ∧
      (∀ a, (a < dst ∨ dst + f.cellSize ≤ a) → ps'.data.get a = ps.data.get a) ∧
      (∀ w, w < f.cw → ps'.sums.get (sp + w) = ps.sums.get (sp + w) +
        BitVec.ofInt 32 (sumTo f.cd fun d => f.unwrap (C w d))) ∧
      (∀ a, (a < sp ∨ sp + f.cw ≤ a) → ps'.sums.get a = ps.sums.get a) := by
  unfold packCell
  obtain ⟨ps', h1, h2⟩ := forLoop_inv1 (hi := f.cw) (s := ps)
    (f := fun w ps => do
      let (ps, sum) ← forLoop 0 f.cd 1 (fun d (st : PackedSide × BitVec 32) => do
        let srcVal ← mem.read (cell.addr w d)
        let unwrapped : Int := (srcVal.toNat : Int) - f.zp
        let off ← offsetIntoCell f w d
        let data ← st.1.data.write (dst + off) (toByte unwrapped)
        let sum ← add32 mode st.2 (BitVec.ofInt 32 unwrapped)
        pure ({ st.1 with data := data }, sum)) (ps, 0#32)
      let old ← ps.sums.read (sp + w)
      let new ← add32 mode old sum
      let sums ← ps.sums.write (sp + w) new
      pure { ps with sums := sums })
    (fun k s => s.pos = ps.pos ∧ s.data.size = ps.data.size ∧ s.sums.size = ps.sums.size ∧
      (∀ w d, w < k → d < f.cd →
        s.data.get (dst + cellOff f w d) = toByte (f.unwrap (C w d))) ∧
      (∀ a, (a < dst ∨ dst + f.cellSize ≤ a) → s.data.get a = ps.data.get a) ∧
      (∀ w, w < k → s.sums.get (sp + w) = ps.sums.get (sp + w) +
        BitVec.ofInt 32 (sumTo f.cd fun d => f.unwrap (C w d))) ∧
      (∀ a, (a < sp ∨ sp + k ≤ a) → s.sums.get a = ps.sums.get a))
    ⟨rfl, rfl, rfl, fun _ _ h => absurd h (Nat.not_lt_zero _), fun _ _ => rfl,
      fun _ h => absurd h (Nat.not_lt_zero _), fun _ _ => rfl⟩
    (by
      intro w s hw ⟨i1, i2, i3, i4, i5, i6, i7⟩
      obtain ⟨⟨s2, sum⟩, e1, e2, e3, e4, e5, e6, e7, e8⟩ := forLoop_inv1 (hi := f.cd) (s := (s, 0#32))
        (f := fun d (st : PackedSide × BitVec 32) => do
          let srcVal ← mem.read (cell.addr w d)
          let unwrapped : Int := (srcVal.toNat : Int) - f.zp
          let off ← offsetIntoCell f w d
          let data ← st.1.data.write (dst + off) (toByte unwrapped)
          let sum ← add32 mode st.2 (BitVec.ofInt 32 unwrapped)
          pure ({ st.1 with data := data }, sum))
        (fun k st => st.1.pos = s.pos ∧ st.1.data.size = s.data.size ∧ st.1.sums = s.sums ∧
          (∀ w' d, w' < w → d < f.cd →
            st.1.data.get (dst + cellOff f w' d) = toByte (f.unwrap (C w' d))) ∧
          (∀ d, d < k → st.1.data.get (dst + cellOff f w d) = toByte (f.unwrap (C w d))) ∧
          (∀ a, (a < dst ∨ dst + f.cellSize ≤ a) → st.1.data.get a = ps.data.get a) ∧
          st.2 = BitVec.ofInt 32 (sumTo k fun d => f.unwrap (C w d)))
        ⟨rfl, rfl, rfl, i4, fun _ h => absurd h (Nat.not_lt_zero _), i5, rfl⟩
        (by
          intro d ⟨s2, sm⟩ hd' ⟨j1, j2, j3, j4, j5, j6, j7⟩
          dsimp only at j1 j2 j3 j4 j5 j6 j7
          have hrd := hc w d (by omega) (by omega)
          have hlt := cellOff_lt hf hw hd'
          have hadd : add32 mode sm (BitVec.ofInt 32 (f.unwrap (C w d))) =
              .ok (BitVec.ofInt 32 (sumTo (d + 1) fun d => f.unwrap (C w d))) := by
            rw [j7, add32_ofInt, ← sumTo_succ]
            intro hm
            have r0 := hr hm w hw
            have b1 := (ps.sums.get (sp + w)).toInt_lt
            have b2 := (ps.sums.get (sp + w)).le_toInt
            have r1 := unwrap_sum_bound (f := f) d (C w)
            have r2 := unwrap_bound f (C w d)
            have r3 : (255 : Int) * (d + 1) ≤ 255 * f.cd := by omega
            unfold InI32
            omega
          refine ⟨(PackedSide.mk (s2.data.upd (dst + cellOff f w d) (toByte (f.unwrap (C w d))))
            s2.sums s2.pos, BitVec.ofInt 32 (sumTo (d + 1) fun d => f.unwrap (C w d))), ?_,
            j1, j2, j3, ?_, ?_, ?_, rfl⟩
          · rw [Mem.read_ok hrd, ok_bind, offsetIntoCell_ok hf, ok_bind]
            dsimp only
            rw [Buf.write_ok (by omega), ok_bind]
            rw [← SideFormat.unwrap_uint8 hu, hadd, ok_bind]; rfl
          · intro w' d' hw' hd2
            dsimp only
            rw [Buf.upd_get, if_neg ?_]
            · exact j4 w' d' hw' hd2
            · intro he
              have := cellOff_inj hf (w := w') (d := d') (w' := w) (d' := d) (by omega) hd2 hw hd'
                (by omega)
              omega
          · intro d2 hd2
            dsimp only
            rw [Buf.upd_get]
            by_cases hdd : d2 = d
            · subst hdd; rw [if_pos rfl]
            · rw [if_neg ?_]
              · exact j5 d2 (by omega)
              · intro he
                have := cellOff_inj hf (w := w) (d := d2) (w' := w) (d' := d) hw (by omega) hw hd'
                  (by omega)
                omega
          · intro a ha
            dsimp only
            rw [Buf.upd_get, if_neg (by omega)]
            exact j6 a ha)
      dsimp only at e2 e3 e4 e5 e6 e7 e8
      have hold : s.sums.get (sp + w) = ps.sums.get (sp + w) := i7 _ (by omega)
      have hadd : add32 mode (s.sums.get (sp + w)) sum = .ok (ps.sums.get (sp + w) +
          BitVec.ofInt 32 (sumTo f.cd fun d => f.unwrap (C w d))) := by
        rw [e8, hold, add32_fit]
        intro hm
        have r0 := hr hm w hw
        have b1 := (ps.sums.get (sp + w)).toInt_lt
        have b2 := (ps.sums.get (sp + w)).le_toInt
        have r1 := unwrap_sum_bound (f := f) f.cd (C w)
        unfold InI32
        omega
      refine ⟨{ s2 with sums := s.sums.upd (sp + w) (ps.sums.get (sp + w) +
          BitVec.ofInt 32 (sumTo f.cd fun d => f.unwrap (C w d))) }, ?_, by dsimp only; omega,
        by dsimp only; omega, i3, ?_, e7, ?_, ?_⟩
      · rw [e1, ok_bind]; dsimp only
        rw [e4, Buf.read_ok (by omega), ok_bind, hadd, ok_bind, Buf.write_ok (by omega), ok_bind]
        rfl
      · intro w' d hw' hd'
        by_cases h : w' = w
        · subst h; exact e6 d hd'
        · exact e5 w' d (by omega) hd'
      · intro w' hw'
        dsimp only
        rw [Buf.upd_get]
        by_cases h : w' = w
        · subst h; rw [if_pos rfl]
        · rw [if_neg (by omega)]; exact i6 w' (by omega)
      · intro a ha
        dsimp only
        rw [Buf.upd_get, if_neg (by omega)]; exact i7 a (by omega))
  exact ⟨ps', h1, h2⟩

/-- The generic packing does what it is meant to do, for every format. -/
theorem packBlock_meets (mode : OvMode) {f : SideFormat} {reg : Nat} (hf : f.WF reg) (hu : f.input = .uint8) :
    PackerMeets packBlock mode f reg := by
  intro o mem src B sw ps hc _ hsw hsd hdat hsum hfit
  unfold packBlock
  rw [if_neg (by rw [hu]; decide)]
  obtain ⟨K, hK⟩ := hf.cd_dvd
  have hkw : f.kw = f.cw * f.cells := rfl
  have hsize : K * f.cells * f.cellSize = f.kw * reg := by
    rw [hK]; unfold SideFormat.cellSize SideFormat.kw
    simp only [Nat.mul_left_comm, Nat.mul_comm]
  obtain ⟨⟨ps1, q1⟩, k1, h1, h2, h3, h4, h5, h6, h7⟩ := forLoop_inv (lo := 0) (hi := reg) (step := f.cd)
    (s := (ps, ps.pos))
    (f := fun csd (st : PackedSide × Nat) =>
      forLoop 0 f.kw f.cw (fun csw (st : PackedSide × Nat) => do
        let cell ← src.block csw csd f.cw f.cd
        let ps ← packCell mode f mem cell st.2 (sw + csw) st.1
        pure (ps, st.2 + f.cellSize)) st)
    (fun i st => CellsDone f B ps.pos ps.data (fun c => c < i / f.cd * f.cells) st.1.data ∧
      SumsAt f B sw f.kw ps.sums (fun _ => i) st.1.sums ∧ st.1.pos = ps.pos ∧
      st.2 = ps.pos + i / f.cd * f.cells * f.cellSize)
    hf.cd_pos
    ⟨CellsDone.init _ _ (by simp), SumsAt.init _ _ _ (by simp), rfl, by simp⟩
    (by
      intro k ⟨s, q⟩ hk ⟨hD1, hS1, hp1, hq⟩
      simp only [Nat.zero_add] at hk hD1 hS1 hq ⊢
      rw [Nat.mul_div_cancel_left _ hf.cd_pos] at hq hD1
      have hkK : k < K := by rw [hK] at hk; exact Nat.lt_of_mul_lt_mul_left hk
      have hkr : f.cd * k + f.cd ≤ reg := by
        have := Nat.mul_le_mul_left f.cd hkK
        rw [Nat.succ_eq_add_one, Nat.mul_add] at this; omega
      obtain ⟨⟨s', q'⟩, j, g1, g2, g3, g4, g5, g6, g7⟩ := forLoop_inv (lo := 0) (hi := f.kw)
        (step := f.cw) (s := (s, q))
        (f := fun csw (st : PackedSide × Nat) => do
          let cell ← src.block csw (f.cd * k) f.cw f.cd
          let ps ← packCell mode f mem cell st.2 (sw + csw) st.1
          pure (ps, st.2 + f.cellSize))
        (fun i st => CellsDone f B ps.pos ps.data (fun c => c < k * f.cells + i / f.cw) st.1.data ∧
          SumsAt f B sw f.kw ps.sums (fun w => if w < i then f.cd * k + f.cd else f.cd * k)
            st.1.sums ∧ st.1.pos = ps.pos ∧
          st.2 = ps.pos + (k * f.cells + i / f.cw) * f.cellSize)
        hf.cw_pos
        ⟨hD1.congr (by simp), hS1.congr (by simp), hp1, by simp [hq]⟩
        (by
          intro j ⟨s2, q2⟩ hj ⟨hD2, hS2, hp2, hq2⟩
          simp only [Nat.zero_add] at hj hD2 hS2 hq2 ⊢
          rw [Nat.mul_div_cancel_left _ hf.cw_pos] at hq2 hD2
          have hjc : j < f.cells := by rw [hkw] at hj; exact Nat.lt_of_mul_lt_mul_left hj
          have hjw : f.cw * j + f.cw ≤ f.kw := by
            have := Nat.mul_le_mul_left f.cw hjc
            rw [Nat.succ_eq_add_one, Nat.mul_add] at this; rw [hkw]; omega
          have hcell : (k * f.cells + j) * f.cellSize + f.cellSize ≤ f.kw * reg := by
            have h1 : k * f.cells + j + 1 ≤ K * f.cells := by
              have := Nat.mul_le_mul_right f.cells (show k + 1 ≤ K from hkK)
              rw [Nat.add_mul] at this; omega
            have := Nat.mul_le_mul_right f.cellSize h1
            rw [hsize, Nat.add_mul _ 1, Nat.one_mul] at this; exact this
          obtain ⟨m', b1, b2, b3, _, b4⟩ := SideMap.block_ok (sw := f.cw * j) (sd := f.cd * k)
            (bw := f.cw) (bd := f.cd) hc (by omega) (by omega)
          obtain ⟨s3, c1, c2, c3, c4, c5, c6, c7, c8⟩ := packCell_effect (mode := mode) (ps := s2)
            (dst := q2) (sp := sw + f.cw * j) hf hu b4 b2 b3 (by rw [hq2, hD2.size]; omega)
            (by rw [hS2.size]; omega)
            (by
              intro hm w hw
              have hv := hS2.val (f.cw * j + w) (by omega)
              rw [← Nat.add_assoc, if_neg (by omega)] at hv
              have r0 := hfit hm (f.cw * j + w) (by omega)
              rw [← Nat.add_assoc] at r0
              have r1 := unwrap_sum_bound (f := f) (f.cd * k) (B (f.cw * j + w))
              have b1 := (ps.sums.get (sw + f.cw * j + w)).toInt_lt
              have b2 := (ps.sums.get (sw + f.cw * j + w)).le_toInt
              have r2 : (255 : Int) * (f.cd * k : Nat) + 255 * f.cd ≤ 255 * reg := by omega
              have r3 : (s2.sums.get (sw + f.cw * j + w)).toInt =
                  (ps.sums.get (sw + f.cw * j + w)).toInt +
                    sumTo (f.cd * k) fun d => f.unwrap (B (f.cw * j + w) d) := by
                have e := ofInt_toInt32 (ps.sums.get (sw + f.cw * j + w))
                rw [hv, ← e, ← BitVec.ofInt_add, toInt_ofInt32 (by unfold InI32; omega),
                  toInt_ofInt32 (by unfold InI32; omega)]
              omega)
          refine ⟨(s3, q2 + f.cellSize), ?_, ?_, ?_, c2.trans hp2, ?_⟩
          · rw [b1, ok_bind, c1]; rfl
          · have m1 : (k * f.cells + j) % f.cells = j := by
              rw [Nat.mul_comm, Nat.mul_add_mod]; exact Nat.mod_eq_of_lt hjc
            have m2 : (k * f.cells + j) / f.cells = k := by
              rw [Nat.mul_comm, Nat.mul_add_div hf.cells_pos, Nat.div_eq_of_lt hjc]; rfl
            refine (CellsDone.step hf hD2 (c := k * f.cells + j) c3 ?_ ?_).congr ?_
            · intro w d hw hd
              rw [m1, m2, ← hq2]; exact c5 w d hw hd
            · intro a ha
              apply c6; rw [hq2]; exact ha
            · intro c
              rw [Nat.mul_div_cancel_left _ hf.cw_pos]
              show (c < k * f.cells + j ∨ c = k * f.cells + j) ↔ c < k * f.cells + (j + 1)
              omega
          · refine (SumsAt.step hS2 (w0 := f.cw * j) (k := f.cw) (t := f.cd) hjw c4 ?_ ?_).congr ?_
            · intro i hi
              rw [if_neg (by omega), ← Nat.add_assoc]
              exact c7 i hi
            · intro a ha
              apply c8; omega
            · intro w hw
              rw [Nat.mul_add, Nat.mul_one]
              by_cases hx : f.cw * j ≤ w ∧ w < f.cw * j + f.cw
              · rw [if_pos hx, if_pos hx.2, if_neg (by omega)]
              · rw [if_neg hx]
                by_cases hy : w < f.cw * j
                · rw [if_pos hy, if_pos (by omega)]
                · rw [if_neg hy, if_neg (by omega)]
          · dsimp only
            rw [Nat.mul_div_cancel_left _ hf.cw_pos, hq2, ← Nat.add_assoc (k * f.cells),
              Nat.add_mul _ 1, Nat.one_mul]
            omega)
      simp only [Nat.zero_add] at g2 g3 g4 g5 g6 g7
      have hjc : j = f.cells := by
        rw [hkw] at g2 g3
        have a1 : f.cells ≤ j := Nat.le_of_mul_le_mul_left g2 hf.cw_pos
        rcases g3 with g3 | g3
        · have := hf.cells_pos; omega
        · have := Nat.lt_of_mul_lt_mul_left g3; omega
      subst hjc
      rw [Nat.mul_div_cancel_left _ hf.cw_pos] at g4 g7
      rw [← hkw] at g5
      have e1 : (k + 1) * f.cells = k * f.cells + f.cells := by rw [Nat.add_mul, Nat.one_mul]
      refine ⟨(s', q'), g1, ?_, ?_, g6, ?_⟩
      · rw [Nat.mul_div_cancel_left _ hf.cd_pos, e1]; exact g4
      · exact g5.congr fun w hw => by rw [if_pos hw, Nat.mul_add, Nat.mul_one]
      · rw [Nat.mul_div_cancel_left _ hf.cd_pos, e1]; exact g7)
  simp only [Nat.zero_add] at h2 h3 h4 h5 h6 h7
  have hk1 : f.cd * k1 = reg := by
    rcases h3 with h3 | h3
    · subst h3; have := hf.reg_pos; simp at h2; omega
    · rw [hK] at h2 h3 ⊢
      have a1 : K ≤ k1 := Nat.le_of_mul_le_mul_left h2 hf.cd_pos
      have a2 := Nat.lt_of_mul_lt_mul_left h3
      have : k1 = K := by omega
      rw [this]
  rw [hk1] at h4 h5
  refine ⟨{ ps1 with pos := ps.pos + f.cells * reg / f.cd * f.cellSize }, by rw [h1]; rfl, ?_⟩
  refine effect_of_done hf h4 h5 ?_
  dsimp only
  rw [← hsize, hK, Nat.mul_left_comm, Nat.mul_div_cancel_left _ hf.cd_pos, Nat.mul_comm K]

/-! ## What the effect means for the packed block as a whole -/

theorem packAddr_cell {p : SideParams} {reg : Nat} (hp : p.Ok f reg) {w0 d0 : Nat} (hw0 : f.cw ∣ w0)
    (hd0 : f.cd ∣ d0) {w d : Nat} (hw : w < f.cw) (hd : d < f.cd) :
    cellAddr p f w0 d0 + cellOff f w d = packAddr p f (w0 + w) (d0 + d) := by
  obtain ⟨j, rfl⟩ := hw0
  obtain ⟨k, rfl⟩ := hd0
  have m1 : (f.cw * j + w) % f.cw = w := by
    rw [Nat.mul_add_mod]; exact Nat.mod_eq_of_lt hw
  have m2 : (f.cd * k + d) % f.cd = d := by
    rw [Nat.mul_add_mod]; exact Nat.mod_eq_of_lt hd
  have q1 : (f.cw * j + w) / f.cw = f.cw * j / f.cw := by
    rw [Nat.mul_add_div hp.wf.cw_pos, Nat.div_eq_of_lt hw,
      Nat.mul_div_cancel_left _ hp.wf.cw_pos]; rfl
  have q2 : (f.cd * k + d) / f.cd = f.cd * k / f.cd := by
    rw [Nat.mul_add_div hp.wf.cd_pos, Nat.div_eq_of_lt hd,
      Nat.mul_div_cancel_left _ hp.wf.cd_pos]; rfl
  unfold packAddr
  rw [m1, m2]
  congr 1
  obtain ⟨m, hm⟩ : f.cd ∣ p.l1_depth := Nat.dvd_trans hp.wf.cd_dvd hp.l1d_dvd
  unfold cellAddr SideFormat.kw
  rw [hm]
  simp only [Nat.mod_mul_right_div_self, ← Nat.div_div_eq_div_mul, q1, q2]

/-- A routine that does what it is meant to do takes a partly packed block one step further. -/
theorem PackerMeetsFor.ok {pb : BlockPacker} {mode : OvMode} {p : SideParams} {f : SideFormat}
    {reg W : Nat} {o : SideMapOrder} (hpb : PackerMeetsFor pb mode f reg o)
    {V : Nat → Nat → Int} {n : Nat → Nat} {ps : PackedSide} {mem : Mem} {src : SideMap}
    {B : Nat → Nat → UInt8}
    (hp : p.Ok f reg) (hr : PackRange mode p) (hV : ∀ w d, -255 ≤ V w d ∧ V w d ≤ 255)
    (hW : W ≤ p.l2_width)
    (hD : DataDone p f W V n ps.data) (hS : SumsDone p W V n ps.sums)
    {sw a e : Nat} (hsw : f.kw ∣ sw) (he : reg ∣ e) (hsW : sw + f.kw ≤ W)
    (hel : e + reg ≤ p.l1_depth) (hel2 : p.l1_depth * a + e + reg ≤ p.l2_depth)
    (hn : ∀ w, sw ≤ w → w < sw + f.kw → n w = p.l1_depth * a + e)
    (hc : SrcIs mem src B) (ho : src.order = o) (hcw : src.width = f.kw) (hcd : src.depth = reg)
    (hB : ∀ w d, w < f.kw → d < reg →
      f.unwrap (B w d) = V (sw + w) (p.l1_depth * a + e + d))
    (hpos : ps.pos = posIn p f sw a e) :
    ∃ ps', pb mode f reg mem src sw ps = .ok ps' ∧
      DataDone p f W V (fun x => if sw ≤ x ∧ x < sw + f.kw then p.l1_depth * a + e + reg else n x)
        ps'.data ∧
      SumsDone p W V (fun x => if sw ≤ x ∧ x < sw + f.kw then p.l1_depth * a + e + reg else n x)
        ps'.sums ∧
      ps'.pos = posIn p f sw a (e + reg) := by
  have hpa : ∀ w d, w < f.kw → d < reg →
      ps.pos + blockOff f w d = packAddr p f (sw + w) (p.l1_depth * a + e + d) := by
    intro w d hw hd
    have hw1 : w / f.cw < f.cells := by
      rw [Nat.div_lt_iff_lt_mul hp.wf.cw_pos, Nat.mul_comm]; exact hw
    have hd2 := Nat.div_add_mod d f.cd
    have hw2 := Nat.div_add_mod w f.cw
    have h1 := cellAddr_eq hp hsw he hw1 (a := a) (k := d / f.cd) (by omega)
    have h2 := packAddr_cell hp (w0 := sw + f.cw * (w / f.cw))
      (d0 := p.l1_depth * a + e + f.cd * (d / f.cd))
      (Nat.dvd_add (Nat.dvd_trans (cw_dvd_kw f) hsw) (Nat.dvd_mul_right _ _))
      (Nat.dvd_add (Nat.dvd_add (Nat.dvd_trans (Nat.dvd_trans hp.wf.cd_dvd hp.l1d_dvd)
        (Nat.dvd_mul_right _ _)) (Nat.dvd_trans hp.wf.cd_dvd he)) (Nat.dvd_mul_right _ _))
      (Nat.mod_lt w hp.wf.cw_pos) (Nat.mod_lt d hp.wf.cd_pos)
    rw [Nat.add_assoc sw, hw2, Nat.add_assoc (p.l1_depth * a + e), hd2, h1] at h2
    rw [← h2, hpos, blockOff, Nat.add_assoc]
  have hroom : ps.pos + f.kw * reg ≤ ps.data.size := by
    rw [hpos, hD.size, posIn]
    have r1 : e + reg ≤ runLen p a := by unfold runLen; omega
    have r2 : p.l1_depth * a + runLen p a ≤ p.l2_depth := by unfold runLen; omega
    have r3 := Nat.mul_le_mul_left f.kw r1
    have r4 := Nat.mul_le_mul_right (runLen p a) (show sw + f.kw ≤ p.l2_width by omega)
    have r5 := Nat.mul_le_mul_left p.l2_width r2
    rw [Nat.add_mul] at r4
    rw [Nat.mul_add] at r3 r5
    omega
  have hfit : SumsFit mode f reg sw ps.sums := by
    intro hm w hw
    rw [hS.val (sw + w) (by omega), hn (sw + w) (by omega) (by omega)]
    have h1 := hr hm
    have h2 := sumTo_bound (n := p.l1_depth * a + e) (f := V (sw + w)) (B := 255)
      (fun i _ => hV _ _)
    rw [toInt_ofInt32 (by unfold InI32; omega)]
    omega
  obtain ⟨ps', h1, h2⟩ := hpb mem src B sw ps hc ho hcw hcd hroom (by rw [hS.size]; omega) hfit
  refine ⟨ps', h1, ?_, ?_, ?_⟩
  · refine ⟨h2.dataSize.trans hD.size, ?_, ?_⟩
    · intro w hw
      split
      · exact hel2
      · exact hD.le w hw
    · intro w d hw hd
      have hd3 : d < p.l2_depth := by
        split at hd
        · omega
        · have := hD.le w hw; omega
      by_cases hnew : (sw ≤ w ∧ w < sw + f.kw) ∧ p.l1_depth * a + e ≤ d
      · rw [if_pos hnew.1] at hd
        have hpa' := hpa (w - sw) (d - (p.l1_depth * a + e)) (by omega) (by omega)
        have hB' := hB (w - sw) (d - (p.l1_depth * a + e)) (by omega) (by omega)
        have hd' := h2.data (w - sw) (d - (p.l1_depth * a + e)) (by omega) (by omega)
        rw [show sw + (w - sw) = w by omega,
          show p.l1_depth * a + e + (d - (p.l1_depth * a + e)) = d by omega] at hpa' hB'
        rw [← hpa', hd', hB']
      · have hdn : d < n w := by
          split at hd
          · rename_i hx
            rw [hn w hx.1 hx.2]; omega
          · exact hd
        rw [h2.dataRest _ ?_]
        · exact hD.val w d hw hdn
        · refine Classical.byContradiction fun hcon => hnew ?_
          obtain ⟨w', d', hw', hd', e'⟩ := blockOff_surj (x := packAddr p f w d - ps.pos) hp.wf
            (by omega)
          have h3 := hpa w' d' hw' hd'
          have h4 := packAddr_inj hp (w := w) (d := d) (w' := sw + w')
            (d' := p.l1_depth * a + e + d') (by omega) hd3 (by omega) (by omega) (by omega)
          omega
  · refine ⟨h2.sumsSize.trans hS.size, ?_⟩
    intro w hw
    by_cases hx : sw ≤ w ∧ w < sw + f.kw
    · have h3 := h2.sums (w - sw) (by omega)
      rw [show sw + (w - sw) = w by omega, hS.val w hw, hn w hx.1 hx.2, ← BitVec.ofInt_add] at h3
      rw [h3, if_pos hx, sumTo_split (p.l1_depth * a + e)]
      congr 2
      refine sumTo_congr fun d hd => ?_
      have := hB (w - sw) d (by omega) hd
      rw [show sw + (w - sw) = w by omega] at this
      exact this
    · rw [h2.sumsRest w (by omega), hS.val w hw, if_neg hx]
  · rw [h2.pos, hpos]; unfold posIn; rw [Nat.mul_add]; omega

end

/-- A packing routine for blocks of depth `reg` that can be used with any format. -/
def GoodPacker (reg : Nat) (pb : BlockPacker) : Prop :=
  ∀ mode f, f.WF reg → f.input = .uint8 → PackerMeets pb mode f reg

theorem packBlock_good (reg : Nat) : GoodPacker reg packBlock := fun mode _ hf hu => packBlock_meets mode hf hu

end Gemmlowp
