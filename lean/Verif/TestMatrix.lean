import Verif.Base
/-!
# test/test.h (and the same text in test/benchmark_all_sizes.cc): comparison and copy of the matrices of the tests
-/
namespace Gemmlowp.TestMatrix

/-- `Matrix` of scalars of `w` bytes (test.h:46-93): the elements in the order of the storage, as unsigned numbers. -/
structure Matrix where
  rows : Nat
  cols : Nat
  storage : List Nat
  deriving DecidableEq, Repr

/-- test.h:85 `size`.  The product is an `int`; that the elements exist bounds it. -/
def Matrix.size (m : Matrix) : Nat := m.rows * m.cols

/-- The bytes of a scalar, little end first. -/
def toBytes (w x : Nat) : List Nat := (List.range w).map fun i => x / 256 ^ i % 256

/-- The storage as `memcmp` and `memcpy` see it. -/
def Matrix.bytes (w : Nat) (m : Matrix) : List Nat := m.storage.flatMap (toBytes w)

/-- `memcmp` of `n` bytes gives 0; outside of the storage it is undefined. -/
def memcmpEq (n : Nat) (a b : List Nat) : M Bool :=
  if n ≤ a.length ∧ n ≤ b.length then .ok (a.take n == b.take n) else .error .oob

/-- test.h:72-75 `operator==`. -/
def equal (w : Nat) (a b : Matrix) : M Bool :=
  if a.rows = b.rows ∧ a.cols = b.cols then memcmpEq a.size (a.bytes w) (b.bytes w) else .ok false

/-- test.h:77-83 `Resize`: `std::vector::resize` keeps a prefix and adds zeros. -/
def resize (m : Matrix) (rows cols : Nat) : Matrix :=
  ⟨rows, cols, m.storage.take (rows * cols) ++ List.replicate (rows * cols - m.storage.length) 0⟩

/-- The first scalar of a list of bytes, and so on. -/
def fromBytes (w : Nat) : Nat → List Nat → List Nat
  | 0, _ => []
  | n + 1, l => ((List.range w).map fun i => l.getD i 0 * 256 ^ i).sum :: fromBytes w n (l.drop w)

/-- test.h:66-70 `operator=`, for two different objects.  `memcpy` outside of either storage is undefined. -/
def assign (w : Nat) (m other : Matrix) : M Matrix :=
  let r := resize m other.rows other.cols
  let n := r.size * w
  if n ≤ (r.bytes w).length ∧ n ≤ (other.bytes w).length then
    .ok { r with storage := fromBytes w r.storage.length ((other.bytes w).take n ++ (r.bytes w).drop n) }
  else .error .oob

end Gemmlowp.TestMatrix
