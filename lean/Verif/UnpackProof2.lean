import Verif.UnpackProof
/-!
# The arithmetic of unpacking
-/
namespace Gemmlowp

/-- The output pipeline acts on each entry separately: `p row col v` is what it makes of the
accumulator `v` of the entry at `(row, col)`. -/
def PipeOk {β : Type} (pipe : PipeEval β) (p : Nat → Nat → BitVec 32 → M β) : Prop :=
  ∀ (R C : Nat) (f : Nat → Nat → BitVec 32) (g : Nat → Nat → β) (row col : Nat), 0 < R → 0 < C →
    (∀ i j, i < R → j < C → p (row + i) (col + j) (f i j) = .ok (g i j)) →
    pipe (RBlock.of R C f) row col = .ok (RBlock.of R C g)

/-- The accumulator after the offset corrections of internal/unpack.h:118-125: `a` the packed
product, `sl`, `sr` the sums, `lo`, `ro` the offsets including the zero points. -/
def corrected (depth : Nat) (a sl sr lo ro : Int) : Int :=
  a + sl * ro + (sr + ro * depth) * lo

/-- All values met while correcting fit in an int32. -/
structure CorrectionFits (depth : Nat) (a sl sr lo0 ro0 lo ro : Int) : Prop where
  ha : InI32 a
  hsl : InI32 sl
  hsr : InI32 sr
  hlo0 : InI32 lo0
  hro0 : InI32 ro0
  hlo : InI32 lo
  hro : InI32 ro
  p1 : InI32 (sl * ro)
  s1 : InI32 (a + sl * ro)
  d : InI32 depth
  p2 : InI32 (ro * depth)
  s2 : InI32 (sr + ro * depth)
  p3 : InI32 ((sr + ro * depth) * lo)
  out : InI32 (corrected depth a sl sr lo ro)

namespace UnpackCtx

variable {β : Type} {x : UnpackCtx} {pipe : PipeEval β} {rows cols : Nat} {val : Nat → Nat → β}

/-- What the inputs of unpacking hold. -/
structure Holds (x : UnpackCtx) (rows cols : Nat) (A : Nat → Nat → Int) (SL SR LO RO : Nat → Int) :
    Prop where
  order : x.srcMap.order = .colMajor
  src : ∀ r c, r < rows → c < cols → x.srcMap.addr r c < x.src.size ∧
    x.src.get (x.srcMap.addr r c) = BitVec.ofInt 32 (A r c)
  lsum : x.lhsSums.Is .col rows (fun r => BitVec.ofInt 32 (SL r))
  rsum : x.rhsSums.Is .row cols (fun c => BitVec.ofInt 32 (SR c))
  loff : x.lhsOffset.Is .col rows (fun r => BitVec.ofInt 32 (LO r))
  roff : x.rhsOffset.Is .row cols (fun c => BitVec.ofInt 32 (RO c))
  fits : x.mode = .trap → ∀ r c, r < rows → c < cols →
    CorrectionFits x.depth (A r c) (SL r) (SR c) (LO r) (RO c) (LO r + x.k.lhs.zp) (RO c + x.k.rhs.zp)

theorem mulAdd_ofInt {mode : OvMode} {a b c : Int}
    (h : mode = .trap → InI32 a ∧ InI32 b ∧ InI32 (a * b) ∧ InI32 c ∧ InI32 (c + a * b)) :
    mulAdd mode (BitVec.ofInt 32 a) (BitVec.ofInt 32 b) (BitVec.ofInt 32 c) =
      .ok (BitVec.ofInt 32 (c + a * b)) := by
  unfold mulAdd
  rw [mul32_ofInt (fun hm => ⟨(h hm).1, (h hm).2.1, (h hm).2.2.1⟩), ok_bind,
    add32_ofInt (fun hm => ⟨(h hm).2.2.2.1, (h hm).2.2.1, (h hm).2.2.2.2⟩)]

theorem inI32_zp (f : SideFormat) : InI32 (f.zp : Int) := by
  unfold SideFormat.zp InI32
  cases f.scalar <;> simp

theorem addConstant_ok {mode : OvMode} {z : Nat} {b : RBlock (BitVec 32)} {R C : Nat}
    {f : Nat → Nat → Int} (hR : 0 < R) (hC : 0 < C) (hb : b.Bc R C (fun i j => BitVec.ofInt 32 (f i j)))
    (hz : InI32 (z : Int))
    (h : mode = .trap → ∀ i j, i < R → j < C → InI32 (f i j) ∧ InI32 (f i j + z)) :
    ∃ b', addConstant mode z b = .ok b' ∧ b'.Bc R C (fun i j => BitVec.ofInt 32 (f i j + z)) := by
  unfold addConstant
  by_cases h0 : (z : Int) = 0
  · rw [if_pos h0, h0]
    refine ⟨b, rfl, ?_⟩
    simpa using hb
  · rw [if_neg h0]
    exact hb.map hR hC fun i j hi hj => add32_ofInt fun hm => ⟨(h hm i j hi hj).1, hz, (h hm i j hi hj).2⟩

theorem evals {A : Nat → Nat → Int} {SL SR LO RO : Nat → Int} (h : x.Holds rows cols A SL SR LO RO)
    {p : Nat → Nat → BitVec 32 → M β} (hp : PipeOk pipe p)
    (hv : ∀ r c, r < rows → c < cols → p (r + x.startRow) (c + x.startCol)
      (BitVec.ofInt 32 (corrected x.depth (A r c) (SL r) (SR c) (LO r + x.k.lhs.zp)
        (RO c + x.k.rhs.zp))) = .ok (val r c)) :
    x.Evals pipe rows cols val := by
  intro R C r c hR hC hr hc
  unfold evalBlock
  have haddr : ∀ i j, x.srcMap.addr r (c + j) + i = x.srcMap.addr (r + i) (c + j) := by
    intro i j
    simp only [MatrixMap.addr, MatrixMap.rowsStride, MatrixMap.colsStride, h.order]
    omega
  have hload : RBlock.loadMatrix R C x.src x.srcMap r c =
      .ok (RBlock.of R C fun i j => BitVec.ofInt 32 (A (r + i) (c + j))) := by
    rw [RBlock.loadMatrix_ok]
    · congr 1
      apply RBlock.of_congr
      intro i j hi hj
      rw [haddr]
      exact (h.src _ _ (by omega) (by omega)).2
    · intro i j hi hj
      rw [haddr]
      exact (h.src _ _ (by omega) (by omega)).1
  obtain ⟨bls, e1, b1⟩ := RBlock.loadForBroadcasting_col (cols := C) h.lsum hr hR
  obtain ⟨brs, e2, b2⟩ := RBlock.loadForBroadcasting_row (rows := R) h.rsum hc hC
  obtain ⟨blo, e3, b3⟩ := RBlock.loadForBroadcasting_col (cols := C) h.loff hr hR
  obtain ⟨bro, e4, b4⟩ := RBlock.loadForBroadcasting_row (rows := R) h.roff hc hC
  obtain ⟨blo', e5, b5⟩ := addConstant_ok (mode := x.mode) (z := x.k.lhs.zp)
    (f := fun i _ => LO (r + i)) hR hC b3 (inI32_zp _)
    (fun hm i j hi hj => ⟨(h.fits hm _ _ (show r + i < rows by omega) (show c + j < cols by omega)).hlo0,
      (h.fits hm _ _ (show r + i < rows by omega) (show c + j < cols by omega)).hlo⟩)
  obtain ⟨bro', e6, b6⟩ := addConstant_ok (mode := x.mode) (z := x.k.rhs.zp)
    (f := fun _ j => RO (c + j)) hR hC b4 (inI32_zp _)
    (fun hm i j hi hj => ⟨(h.fits hm _ _ (show r + i < rows by omega) (show c + j < cols by omega)).hro0,
      (h.fits hm _ _ (show r + i < rows by omega) (show c + j < cols by omega)).hro⟩)
  have e7 := RBlock.broadcastMulAdd_of (fma := mulAdd x.mode) b1 b6
    (acc := fun i j => BitVec.ofInt 32 (A (r + i) (c + j)))
    (out := fun i j => BitVec.ofInt 32 (A (r + i) (c + j) + SL (r + i) * (RO (c + j) + x.k.rhs.zp)))
    (fun i j hi hj => mulAdd_ofInt fun hm => by
      have q := h.fits hm (r + i) (c + j) (by omega) (by omega)
      exact ⟨q.hsl, q.hro, q.p1, q.ha, q.s1⟩)
    (fun i j hi hj => by
      rw [Int.mul_comm (SL (r + i))]
      exact mulAdd_ofInt fun hm => by
        have q := h.fits hm (r + i) (c + j) (by omega) (by omega)
        exact ⟨q.hro, q.hsl, by rw [Int.mul_comm]; exact q.p1, q.ha, by rw [Int.mul_comm]; exact q.s1⟩)
  obtain ⟨bro'', e8, b8⟩ := b6.map hR hC (op := fun v => mul32 x.mode v (BitVec.ofInt 32 x.depth))
    (g := fun i j => BitVec.ofInt 32 ((RO (c + j) + x.k.rhs.zp) * x.depth))
    (fun i j hi hj => mul32_ofInt fun hm => by
      have q := h.fits hm (r + i) (c + j) (by omega) (by omega)
      exact ⟨q.hro, q.d, q.p2⟩)
  obtain ⟨bs, e9, b9⟩ := RBlock.broadcast_of (op := add32 x.mode) hR hC b2 b8
    (out := fun i j => BitVec.ofInt 32 (SR (c + j) + (RO (c + j) + x.k.rhs.zp) * x.depth))
    (fun i j hi hj => add32_ofInt fun hm => by
      have q := h.fits hm (r + i) (c + j) (by omega) (by omega)
      exact ⟨q.hsr, q.p2, q.s2⟩)
    (fun i j hi hj => by
      rw [Int.add_comm (SR (c + j))]
      exact add32_ofInt fun hm => by
        have q := h.fits hm (r + i) (c + j) (by omega) (by omega)
        exact ⟨q.p2, q.hsr, by rw [Int.add_comm]; exact q.s2⟩)
  have e10 := RBlock.broadcastMulAdd_of (fma := mulAdd x.mode) b9 b5
    (acc := fun i j => BitVec.ofInt 32 (A (r + i) (c + j) + SL (r + i) * (RO (c + j) + x.k.rhs.zp)))
    (out := fun i j => BitVec.ofInt 32 (corrected x.depth (A (r + i) (c + j)) (SL (r + i))
      (SR (c + j)) (LO (r + i) + x.k.lhs.zp) (RO (c + j) + x.k.rhs.zp)))
    (fun i j hi hj => by
      unfold corrected
      exact mulAdd_ofInt fun hm => by
        have q := h.fits hm (r + i) (c + j) (by omega) (by omega)
        exact ⟨q.s2, q.hlo, q.p3, q.s1, q.out⟩)
    (fun i j hi hj => by
      unfold corrected
      rw [Int.mul_comm (SR (c + j) + _)]
      exact mulAdd_ofInt fun hm => by
        have q := h.fits hm (r + i) (c + j) (by omega) (by omega)
        exact ⟨q.hlo, q.s2, by rw [Int.mul_comm]; exact q.p3, q.s1, by
          rw [Int.mul_comm (LO _ + _)]; exact q.out⟩)
  rw [hload, ok_bind, e1, ok_bind, e2, ok_bind, e3, ok_bind, e4, ok_bind, e5, ok_bind, e6, ok_bind,
    e7, ok_bind, e8, ok_bind, e9, ok_bind, e10, ok_bind]
  apply hp R C _ _ _ _ hR hC
  intro i j hi hj
  rw [Nat.add_right_comm, Nat.add_right_comm c]
  exact hv _ _ (by omega) (by omega)

end UnpackCtx

/-- The contract of the block operations: `P row col v w` says that the accumulator `v` of the entry at
`(row, col)` is turned into `w`. -/
def OutOk {β : Type} (o : BlockOps β) (mode : OvMode) (P : Nat → Nat → BitVec 32 → β → Prop) : Prop :=
  ∀ (x : UnpackCtx) (rows cols : Nat) (A : Nat → Nat → Int) (SL SR LO RO : Nat → Int)
    (val : Nat → Nat → β), x.mode = mode → x.Holds rows cols A SL SR LO RO →
    (∀ r c, r < rows → c < cols → P (r + x.startRow) (c + x.startCol)
      (BitVec.ofInt 32 (corrected x.depth (A r c) (SL r) (SR c) (LO r + x.k.lhs.zp)
        (RO c + x.k.rhs.zp))) (val r c)) →
    UnpackCtx.BlocksOk o x rows cols val

theorem scalarOps_ok {β : Type} {pipe : PipeEval β} {p : Nat → Nat → BitVec 32 → M β} {mode : OvMode}
    (hp : PipeOk pipe p) : OutOk (scalarOps pipe) mode (fun r c v w => p r c v = .ok w) :=
  fun _ _ _ _ _ _ _ _ _ _ h hv => (UnpackCtx.evals h hp hv).blocks

end Gemmlowp
