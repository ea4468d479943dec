import Verif.Dispatch
import Verif.OutputSpec
import Mathlib.Algebra.BigOperators.Intervals
/-!
# What a matrix product is meant to do

Specification of the public entry points, in terms of the entries of the matrices.
-/
namespace Gemmlowp

open Finset in
/-- Entry `(r, c)` of the product of `L` (with `LO r` added to row `r`) and `R` (with `RO c` added
to column `c`), where the bytes of the matrices are numbers of type `t`. -/
def productEntry (t : InputScalar) (depth : Nat) (L R : Nat → Nat → UInt8) (LO RO : Nat → Int) (r c : Nat) :
    Int :=
  ∑ d ∈ range depth, (t.val (L r d) + LO r) * (t.val (R d c) + RO c)

/-- The arguments describe the product of the `rows × depth` matrix `L` and the `depth × cols`
matrix `R` with offsets `LO`, `RO`: sizes agree, the two input memories hold the entries of `L` and
`R` where the maps say (nothing is assumed about other addresses, not even that they can be read),
and the offset vectors hold `LO` and `RO`. -/
structure Call.Describes (c : Call) (L R : Nat → Nat → UInt8) (LO RO : Nat → BitVec 32) : Prop where
  lhs : ∀ i d, i < c.result.rows → d < c.lhs.cols → c.lhsMem (c.lhs.addr i d) = some (L i d)
  rhs : ∀ d j, d < c.lhs.cols → j < c.result.cols → c.rhsMem (c.rhs.addr d j) = some (R d j)
  rows : c.lhs.rows = c.result.rows
  cols : c.rhs.cols = c.result.cols
  depth : c.lhs.cols = c.rhs.rows
  lhsOffset : c.lhsOffset.Is .col c.result.rows LO
  rhsOffset : c.rhsOffset.Is .row c.result.cols RO

/-- With the C++ rule for overflow: offsets are negated zero points of data of type `t`, and the depth is
at most 33024. -/
def Call.InRange (c : Call) (t : InputScalar) (mode : OvMode) (LO RO : Nat → BitVec 32) : Prop :=
  mode = .trap → c.lhs.cols ≤ 33024 ∧
    (∀ i, i < c.result.rows → -t.hi ≤ (LO i).toInt ∧ (LO i).toInt ≤ -t.lo) ∧
    (∀ j, j < c.result.cols → -t.hi ≤ (RO j).toInt ∧ (RO j).toInt ≤ -t.lo)

/-- The entries of the two matrices, as the kernel of format `k` will see them (minus the zero point
of its operands), are pairwise in the range of the kernel.  A result with fewer rows than columns is computed
as its transpose, so that the kernel sees the matrices in swapped roles. -/
structure Call.Within (c : Call) (t : InputScalar) (k : KernelFormat) (N : KernelNeeds)
    (L R : Nat → Nat → UInt8) : Prop where
  pad : N.pair 0 0
  int : N.int → roundUp k.kDepth c.lhs.cols ≤ 2147483647
  tall : c.result.cols ≤ c.result.rows → ∀ i j d, i < c.result.rows → j < c.result.cols →
    d < c.lhs.cols → N.pair (t.val (L i d) - k.lhs.zp) (t.val (R d j) - k.rhs.zp)
  wide : c.result.rows ≤ c.result.cols → ∀ i j d, i < c.result.rows → j < c.result.cols →
    d < c.lhs.cols → N.pair (t.val (R d j) - k.lhs.zp) (t.val (L i d) - k.rhs.zp)

/-- What the theorems need to know about the environment of a call that multiplies `L` and `R`, matrices of
type `t`: the kernel is one for inputs of this type and meets its contract, for operands in a range that includes those of this call; the routine that
packs a register-size block has the effect it is meant to have on sources in the order of the two matrices (for the generic one this is
`packBlock_meets`, for the vector versions property C59); the number of
threads asked for is positive and the splitting of the rows (the larger dimension of the result) can
be computed in `int`. -/
structure Env.Ok (e : Env) (t : InputScalar) (c : Call) (L R : Nat → Nat → UInt8) : Prop where
  wf : e.k.WF e.reg
  run : ∃ N, KernelMeets e.mode e.k e.reg N e.run ∧ c.Within t e.k N L R
  inputLhs : e.k.lhs.input = t
  inputRhs : e.k.rhs.input = t
  packLhs : ∀ o, o = c.lhs.order.lhsSide ∨ o = c.rhs.order.rhsSide → PackerMeetsFor e.pack e.mode e.k.lhs e.reg o
  packRhs : ∀ o, o = c.lhs.order.lhsSide ∨ o = c.rhs.order.rhsSide → PackerMeetsFor e.pack e.mode e.k.rhs e.reg o
  regDvd : e.reg ∣ 33024
  threads : 0 < getHardwareConcurrency e.hw e.maxThreads
  fits1 : ((max c.result.rows c.result.cols : Nat) : Int) *
    getHardwareConcurrency e.hw e.maxThreads ≤ 2147483647
  fits2 : ((max c.result.rows c.result.cols : Nat) : Int) + max (e.k.kRows : Int) 16 ≤ 2147483647

/-- A kernel that takes all operands. -/
theorem Call.within_true (c : Call) (t : InputScalar) (k : KernelFormat) (L R : Nat → Nat → UInt8) :
    c.Within t k .none L R :=
  ⟨trivial, fun h => h.elim, fun _ _ _ _ _ _ _ => trivial, fun _ _ _ _ _ _ _ => trivial⟩

end Gemmlowp
