import Verif.Common
/-!
# internal/kernel.h: cell and kernel formats
-/
namespace Gemmlowp

/-- internal/kernel.h:122 `CellOrder`. -/
inductive CellOrder | depthMajor | widthMajor | diagonal
  deriving DecidableEq, Repr

/-- The types of the two input matrices (`InputScalar`). -/
inductive InputScalar | uint8 | int8
  deriving DecidableEq, Repr

namespace InputScalar
/-- The integer that a byte of an input matrix stands for. -/
def val (t : InputScalar) (b : UInt8) : Int :=
  match t with
  | .uint8 => (b.toNat : Int)
  | .int8 => if b.toNat < 128 then (b.toNat : Int) else (b.toNat : Int) - 256
/-- The least value of the type. -/
def lo : InputScalar → Int | .uint8 => 0 | .int8 => -128
/-- The greatest value of the type. -/
def hi : InputScalar → Int | .uint8 => 255 | .int8 => 127

theorem val_bound (t : InputScalar) (b : UInt8) : t.lo ≤ t.val b ∧ t.val b ≤ t.hi := by
  have := b.toNat_lt
  cases t
  · show (0 : Int) ≤ (b.toNat : Int) ∧ (b.toNat : Int) ≤ 255; omega
  · show (-128 : Int) ≤ (if b.toNat < 128 then (b.toNat : Int) else (b.toNat : Int) - 256) ∧
      (if b.toNat < 128 then (b.toNat : Int) else (b.toNat : Int) - 256) ≤ 127
    split <;> omega

theorem width (t : InputScalar) : t.hi - t.lo = 255 := by cases t <;> rfl
end InputScalar

/-- The scalar types of a format: internal/kernel.h:142-150 `KernelSideFormat` (uint8), 154-158
`KernelSideFormatInt8` (int8 made from uint8 inputs) and 162-166 `KernelSideFormatInt8Inputs` (int8
inputs). -/
inductive KernelScalar | uint8 | int8 | int8Inputs
  deriving DecidableEq, Repr

/-- internal/kernel.h:127-134 `CellFormat` together with 142-166 `KernelSideFormat`,
`KernelSideFormatInt8`, `KernelSideFormatInt8Inputs`. -/
structure SideFormat where
  /-- `Cell::kWidth` -/
  cw : Nat
  /-- `Cell::kDepth` -/
  cd : Nat
  order : CellOrder
  /-- `kCells` -/
  cells : Nat
  scalar : KernelScalar
  deriving DecidableEq, Repr

namespace SideFormat

/-- `KernelSideFormat::kWidth` (internal/kernel.h:145), `kKernelWidth` (internal/pack.h:216). -/
def kw (f : SideFormat) : Nat := f.cw * f.cells

/-- `Cell::kSize` (internal/kernel.h:133). -/
def cellSize (f : SideFormat) : Nat := f.cw * f.cd

/-- The type `InputScalar` of a format (internal/kernel.h:149, 157, 165). -/
def input (f : SideFormat) : InputScalar :=
  match f.scalar with | .uint8 => .uint8 | .int8 => .uint8 | .int8Inputs => .int8

/-- internal/kernel.h:231-247 `ZeroPointInputValue<InputScalar, Scalar>`. -/
def zp (f : SideFormat) : Nat := match f.scalar with | .uint8 => 0 | .int8 => 128 | .int8Inputs => 0

/-- The integer a kernel sees in a packed byte: its value as uint8 or as int8. -/
def kval (f : SideFormat) (b : UInt8) : Int :=
  match f.scalar with
  | .uint8 => (b.toNat : Int)
  | .int8 => if b.toNat < 128 then (b.toNat : Int) else (b.toNat : Int) - 256
  | .int8Inputs => if b.toNat < 128 then (b.toNat : Int) else (b.toNat : Int) - 256

/-- Side conditions met by every format in /repo: positive sizes, square cells in diagonal order
(asserted at internal/kernel.h:205), cell depth dividing the register size `reg`
(`kRegisterSize`, 16 or 32, internal/common.h:111-115). -/
structure WF (f : SideFormat) (reg : Nat) : Prop where
  cw_pos : 0 < f.cw
  cd_pos : 0 < f.cd
  cells_pos : 0 < f.cells
  diag : f.order = .diagonal → f.cw = f.cd
  cd_dvd : f.cd ∣ reg
  reg_pos : 0 < reg

end SideFormat

/-- internal/kernel.h:195-211 `OffsetIntoCell`. -/
def offsetIntoCell (f : SideFormat) (w d : Nat) : M Nat :=
  match f.order with
  | .depthMajor => .ok (w + d * f.cw)
  | .widthMajor => .ok (d + w * f.cd)
  | .diagonal => do
    assertM (decide (f.cw = f.cd))
    pure (((f.cw + w - d) * f.cw + d) % (f.cw * f.cw))

/-- internal/kernel.h:170-179 `KernelFormat`. -/
structure KernelFormat where
  lhs : SideFormat
  rhs : SideFormat
  deriving DecidableEq, Repr

namespace KernelFormat
/-- internal/kernel.h:176 `kDepth`. -/
def kDepth (k : KernelFormat) : Nat := k.lhs.cd
/-- internal/kernel.h:177 `kRows`. -/
def kRows (k : KernelFormat) : Nat := k.lhs.kw
/-- internal/kernel.h:178 `kCols`. -/
def kCols (k : KernelFormat) : Nat := k.rhs.kw

/-- Well-formed format: both sides are, and the `static_assert` of internal/kernel.h:175. -/
structure WF (k : KernelFormat) (reg : Nat) : Prop where
  lhs : k.lhs.WF reg
  rhs : k.rhs.WF reg
  depth : k.lhs.cd = k.rhs.cd
end KernelFormat

/-- The number computed by `OffsetIntoCell` when its assertion holds. -/
def cellOff (f : SideFormat) (w d : Nat) : Nat :=
  match f.order with
  | .depthMajor => w + d * f.cw
  | .widthMajor => d + w * f.cd
  | .diagonal => ((f.cw + w - d) * f.cw + d) % (f.cw * f.cw)

theorem offsetIntoCell_ok {f : SideFormat} {reg : Nat} (h : f.WF reg) (w d : Nat) :
    offsetIntoCell f w d = .ok (cellOff f w d) := by
  unfold offsetIntoCell cellOff
  cases ho : f.order <;> simp [pure_ok]
  rw [decide_eq_true (h.diag ho)]; rfl

theorem mixed_lt {a b m n : Nat} (ha : a < m) (hb : b < n) : a + b * m < m * n := by
  have : m * (b + 1) ≤ m * n := Nat.mul_le_mul_left m hb
  rw [Nat.mul_add] at this
  rw [Nat.mul_comm b m]; omega

theorem mixed_inj {a b a' b' m : Nat} (ha : a < m) (ha' : a' < m) (h : a + b * m = a' + b' * m) :
    a = a' ∧ b = b' := by
  have h1 : (a + b * m) % m = (a' + b' * m) % m := by rw [h]
  rw [Nat.add_mul_mod_self_right, Nat.add_mul_mod_self_right, Nat.mod_eq_of_lt ha,
    Nat.mod_eq_of_lt ha'] at h1
  subst h1
  have h2 : b * m = b' * m := by omega
  exact ⟨rfl, Nat.eq_of_mul_eq_mul_right (by omega) h2⟩

theorem diag_eq {s w d : Nat} (hw : w < s) (hd : d < s) :
    ((s + w - d) * s + d) % (s * s) = (if w < d then s + w - d else w - d) * s + d := by
  have hs : 0 < s := by omega
  split
  · apply Nat.mod_eq_of_lt
    have := mixed_lt (a := d) (b := s + w - d) (m := s) (n := s) hd (by omega)
    omega
  · have e : (s + w - d) * s + d = ((w - d) * s + d) + s * s := by
      have : s + w - d = (w - d) + s := by omega
      rw [this, Nat.add_mul]; omega
    rw [e, Nat.add_mod_right]
    apply Nat.mod_eq_of_lt
    have := mixed_lt (a := d) (b := w - d) (m := s) (n := s) hd (by omega)
    omega

theorem cellOff_lt {f : SideFormat} {reg : Nat} (h : f.WF reg) {w d : Nat}
    (hw : w < f.cw) (hd : d < f.cd) : cellOff f w d < f.cellSize := by
  unfold cellOff SideFormat.cellSize
  cases ho : f.order <;> simp only
  · exact mixed_lt hw hd
  · rw [Nat.mul_comm f.cw]; exact mixed_lt hd hw
  · have := h.diag ho
    rw [← this]
    exact Nat.mod_lt _ (Nat.mul_pos h.cw_pos h.cw_pos)

theorem cellOff_inj {f : SideFormat} {reg : Nat} (h : f.WF reg) {w d w' d' : Nat}
    (hw : w < f.cw) (hd : d < f.cd) (hw' : w' < f.cw) (hd' : d' < f.cd)
    (he : cellOff f w d = cellOff f w' d') : w = w' ∧ d = d' := by
  unfold cellOff at he
  cases ho : f.order <;> simp only [ho] at he
  · exact mixed_inj hw hw' he
  · exact (mixed_inj hd hd' he).symm
  · have hs := h.diag ho
    rw [diag_eq hw (by omega), diag_eq hw' (by omega)] at he
    have := mixed_inj (a := d) (a' := d') (m := f.cw) (by omega) (by omega)
      (by rw [Nat.add_comm d, Nat.add_comm d']; exact he)
    obtain ⟨rfl, h2⟩ := this
    refine ⟨?_, rfl⟩
    split at h2 <;> split at h2 <;> omega

end Gemmlowp
