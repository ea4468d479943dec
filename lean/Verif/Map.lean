import Verif.Base
/-!
# public/map.h: matrix and vector views
-/
namespace Gemmlowp

/-- public/map.h:27 `MapOrder`. -/
inductive MapOrder | colMajor | rowMajor
  deriving DecidableEq, Repr

/-- public/map.h:31-48 `MatrixMap`: a view of memory.  `base` is the address `data_` (in
elements), natural number arithmetic instead of `int`/pointer arithmetic. -/
structure MatrixMap where
  base : Nat
  rows : Nat
  cols : Nat
  stride : Nat
  order : MapOrder
  deriving DecidableEq, Repr

namespace MatrixMap

/-- public/map.h:43-47, the constructor without stride. -/
def mk3 (order : MapOrder) (base rows cols : Nat) : MatrixMap :=
  { base, rows, cols, order
    stride := match order with | .colMajor => rows | .rowMajor => cols }

/-- public/map.h:59 -/
def rowsStride (m : MatrixMap) : Nat := match m.order with | .colMajor => 1 | .rowMajor => m.stride
/-- public/map.h:60 -/
def colsStride (m : MatrixMap) : Nat := match m.order with | .rowMajor => 1 | .colMajor => m.stride

/-- public/map.h:62-64 `data(row, col)`, the address of an entry. -/
def addr (m : MatrixMap) (row col : Nat) : Nat :=
  m.base + row * m.rowsStride + col * m.colsStride

/-- public/map.h:67-76 `block`. The checks `start >= 0` hold by typing. -/
def block (m : MatrixMap) (startRow startCol blockRows blockCols : Nat) : M MatrixMap := do
  assertM (decide (startRow + blockRows ≤ m.rows))
  assertM (decide (startCol + blockCols ≤ m.cols))
  pure { base := m.addr startRow startCol, rows := blockRows, cols := blockCols,
         stride := m.stride, order := m.order }

/-- internal/dispatch_gemm_shape.h:41-45 `TransposeMapOrder` and 64-72
`TransposeImpl<MatrixMap>`. -/
def transpose (m : MatrixMap) : MatrixMap :=
  { base := m.base, rows := m.cols, cols := m.rows, stride := m.stride
    order := match m.order with | .rowMajor => .colMajor | .colMajor => .rowMajor }

/-- The stride is at least the extent of the contiguous dimension, so that entries do not
overlap.  (A requirement on callers; public/map.h does not check it.) -/
def StrideOk (m : MatrixMap) : Prop :=
  match m.order with | .colMajor => m.rows ≤ m.stride | .rowMajor => m.cols ≤ m.stride

instance (m : MatrixMap) : Decidable m.StrideOk := by
  unfold StrideOk; split <;> infer_instance

theorem block_ok {m : MatrixMap} {r c br bc : Nat} (h1 : r + br ≤ m.rows) (h2 : c + bc ≤ m.cols) :
    m.block r c br bc = .ok { base := m.addr r c, rows := br, cols := bc,
                              stride := m.stride, order := m.order } := by
  simp [block, h1, h2, pure_ok, ok_bind]

theorem transpose_addr (m : MatrixMap) (r c : Nat) : m.transpose.addr c r = m.addr r c := by
  unfold addr rowsStride colsStride transpose
  cases m.order <;> simp <;> omega

theorem transpose_transpose (m : MatrixMap) : m.transpose.transpose = m := by
  cases m with | mk b r c s o => cases o <;> rfl

theorem addr_inj {m : MatrixMap} (hs : m.StrideOk) {r c r' c' : Nat}
    (hr : r < m.rows) (hc : c < m.cols) (hr' : r' < m.rows) (hc' : c' < m.cols)
    (h : m.addr r c = m.addr r' c') : r = r' ∧ c = c' := by
  have key : ∀ {x y x' y' s : Nat}, x < s → x' < s → x + y * s = x' + y' * s → x = x' ∧ y = y' := by
    intro x y x' y' s hx hx' he
    have h1 : (x + y * s) % s = (x' + y' * s) % s := by rw [he]
    rw [Nat.add_mul_mod_self_right, Nat.add_mul_mod_self_right, Nat.mod_eq_of_lt hx,
      Nat.mod_eq_of_lt hx'] at h1
    subst h1
    have h2 : y * s = y' * s := by omega
    exact ⟨rfl, Nat.eq_of_mul_eq_mul_right (by omega) h2⟩
  unfold addr rowsStride colsStride at h
  unfold StrideOk at hs
  cases ho : m.order <;> simp only [ho] at h hs
  · have := key (x := r) (y := c) (x' := r') (y' := c') (s := m.stride)
      (by omega) (by omega) (by omega)
    exact this
  · have := key (x := c) (y := r) (x' := c') (y' := r') (s := m.stride)
      (by omega) (by omega) (by omega)
    exact ⟨this.2, this.1⟩

end MatrixMap

/-- public/map.h:79 `VectorShape`. -/
inductive VectorShape | col | row
  deriving DecidableEq, Repr

/-- internal/dispatch_gemm_shape.h:47-51 `TransposeVectorShape`. -/
def VectorShape.transpose : VectorShape → VectorShape
  | .row => .col
  | .col => .row

/-- The two offset/parameter vector classes: public/map.h:83-110 `VectorMap` (memory `data`,
read at `base + i`) and 113-138 `VectorDup` (one value).  Elements are int32; `shape` is the
template parameter `tShape`. -/
inductive OffsetVec
  | map (shape : VectorShape) (data : Nat → Option (BitVec 32)) (base size : Nat)
  | dup (shape : VectorShape) (value : BitVec 32) (size : Nat)

namespace OffsetVec

/-- public/map.h:99, 128 `size()`. -/
def size : OffsetVec → Nat
  | map _ _ _ n => n
  | dup _ _ n => n

/-- public/map.h:102 and 129 `operator()`.  For a `VectorMap`, a read outside the underlying
memory is a fault; the class itself does not check the index against `size`. -/
def read : OffsetVec → Nat → M (BitVec 32)
  | map _ d b _, i => match d (b + i) with
    | some v => .ok v
    | none => .error .oob
  | dup _ v _, _ => .ok v

/-- public/map.h:104-109 and 131-137 `block`. -/
def block : OffsetVec → Nat → Nat → M OffsetVec
  | map sh d b n, start, len => do
    assertM (decide (start + len ≤ n))
    pure (map sh d (b + start) len)
  | dup sh v n, start, len => do
    assertM (decide (start + len ≤ n))
    pure (dup sh v len)

/-- internal/dispatch_gemm_shape.h:53-62 `TransposeImpl<VectorMap>`; a `VectorDup` has no
specialisation and goes through the generic `TransposeImpl` 27-31, which returns it unchanged
(its shape parameter included). -/
def transpose : OffsetVec → OffsetVec
  | map sh d b n => map sh.transpose d b n
  | dup sh v n => dup sh v n

/-- `v` can be used where a vector of shape `sh` is meant: for a `VectorMap` the shape
parameter decides how it is broadcast, for a `VectorDup` it is irrelevant. -/
def ShapeOk (v : OffsetVec) (sh : VectorShape) : Prop :=
  match v with
  | map s _ _ _ => s = sh
  | dup _ _ _ => True

/-- `v` behaves as the vector `f(0), f(1), ..., f(n-1)` of shape `sh`. -/
def Is (v : OffsetVec) (sh : VectorShape) (n : Nat) (f : Nat → BitVec 32) : Prop :=
  v.ShapeOk sh ∧ v.size = n ∧ ∀ i, i < n → v.read i = .ok (f i)

theorem block_ok {v : OffsetVec} {sh : VectorShape} {n : Nat} {f : Nat → BitVec 32}
    (h : v.Is sh n f) {s l : Nat} (hl : s + l ≤ n) :
    ∃ v', v.block s l = .ok v' ∧ v'.Is sh l (fun i => f (s + i)) := by
  obtain ⟨hs, hn, hf⟩ := h
  cases v with
  | map sh' d b m =>
    simp only [size] at hn; subst hn
    refine ⟨map sh' d (b + s) l, by simp [block, hl, pure_ok, ok_bind], hs, rfl, ?_⟩
    intro i hi
    have := hf (s + i) (by omega)
    simp only [read] at this ⊢
    rw [Nat.add_assoc]; exact this
  | dup sh' x m =>
    simp only [size] at hn; subst hn
    refine ⟨dup sh' x l, by simp [block, hl, pure_ok, ok_bind], hs, rfl, ?_⟩
    intro i hi
    exact hf (s + i) (by omega)

theorem transpose_is {v : OffsetVec} {sh : VectorShape} {n : Nat} {f : Nat → BitVec 32}
    (h : v.Is sh n f) : v.transpose.Is sh.transpose n f := by
  obtain ⟨hs, hn, hf⟩ := h
  cases v with
  | map s d b m => simp only [ShapeOk] at hs; subst hs; exact ⟨rfl, hn, hf⟩
  | dup s x m => exact ⟨trivial, hn, hf⟩

end OffsetVec
end Gemmlowp
