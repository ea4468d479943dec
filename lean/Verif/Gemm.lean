import Verif.UnpackProof2
/-!
# internal/single_thread_gemm.h
-/
namespace Gemmlowp

/-- The arguments of internal/single_thread_gemm.h:62-70 `SingleThreadGemm` (and of
`MultiThreadGemm`).  `reg` is `kRegisterSize`, `run` the kernel, `pack` the
packing of a register-size block, `out` the unpacking of a register block.  The two input matrices live in
memory that is not written during the call; the memory of the result is disjoint from it. -/
structure GemmArgs (β : Type) where
  mode : OvMode
  k : KernelFormat
  reg : Nat
  run : KernelRun
  pack : BlockPacker
  lhsMem : Mem
  lhs : MatrixMap
  rhsMem : Mem
  rhs : MatrixMap
  result : MatrixMap
  lhsOffset : OffsetVec
  rhsOffset : OffsetVec
  out : BlockOps β

/-- What happens to be in the scratch buffers handed out by the allocator. -/
structure Scratch where
  lhsData : Nat → UInt8
  lhsSums : Nat → BitVec 32
  rhsData : Nat → UInt8
  rhsSums : Nat → BitVec 32
  res : Nat → BitVec 32

/-- internal/pack.h:50-59, the constructor of `PackedSideBlock`; the contents are whatever is in
the memory. -/
def PackedSide.fresh (p : SideParams) (data : Nat → UInt8) (sums : Nat → BitVec 32) : PackedSide :=
  { data := { size := p.l2_width * p.l2_depth, get := data }
    sums := { size := p.l2_width, get := sums }
    pos := 0 }

/-- internal/unpack.h:32-37, the constructor of `PackedResult`. -/
def freshResult (b : BlockParams) (res : Nat → BitVec 32) : Buf (BitVec 32) :=
  { size := b.l2_rows * b.l2_cols, get := res }

/-- internal/single_thread_gemm.h:139-145 and internal/multi_thread_gemm.h:509-519: multiply two
packed blocks and unpack into the block of the result at `(startRow, startCol)`. -/
def gemmStep {β : Type} (a : GemmArgs β) (b : BlockParams) (pl pr : PackedSide)
    (startRow startCol rs cs depth : Nat) (res : Buf (BitVec 32)) (t : Trace β) :
    M (Buf (BitVec 32) × Trace β) := do
  let res ← compute a.run a.k b pl pr depth res
  let lo ← a.lhsOffset.block startRow rs
  let ro ← a.rhsOffset.block startCol cs
  let t ← unpackResult a.mode a.k b a.result startRow startCol rs cs res depth pl.sums pr.sums
    lo ro a.out t
  pure (res, t)

/-- The mutable state of `SingleThreadGemm`. -/
structure GemmState (β : Type) where
  pl : PackedSide
  pr : PackedSide
  res : Buf (BitVec 32)
  t : Trace β

/-- internal/single_thread_gemm.h:72-149 `SingleThreadGemm`.  The allocator calls (114-120, 149)
are modelled by the buffers of `Scratch`; see `Verif.Allocator` for the allocator itself. -/
def singleThreadGemm {β : Type} (a : GemmArgs β) (tun : Tuning) (s : Scratch) (t : Trace β) :
    M (Trace β) := do
  assertM (decide (a.lhs.cols = a.rhs.rows))
  let rows := a.result.rows
  let cols := a.result.cols
  let depth := a.lhs.cols
  assertM (decide (0 < rows))
  assertM (decide (0 < cols))
  assertM (decide (0 < depth))
  assertM (decide (cols ≤ rows))
  let b ← BlockParams.init a.k a.reg rows cols depth 1 tun
  let pl := PackedSide.fresh (b.side .lhs) s.lhsData s.lhsSums
  let pr := PackedSide.fresh (b.side .rhs) s.rhsData s.rhsSums
  let res := freshResult b s.res
  (if cols ≤ b.l2_cols then packRhs a.pack a.mode a.k.rhs a.reg (b.side .rhs) a.rhsMem a.rhs pr
    else pure pr) >>= fun pr => do
  let st ← forLoop 0 rows b.l2_rows (fun r (st : GemmState β) => do
    let rs := min b.l2_rows (rows - r)
    let blk ← a.lhs.block r 0 rs depth
    let pl ← packLhs a.pack a.mode a.k.lhs a.reg (b.side .lhs) a.lhsMem blk st.pl
    forLoop 0 cols b.l2_cols (fun c (st : GemmState β) => do
      let cs := min b.l2_cols (cols - c)
      (if cols ≤ b.l2_cols then pure st.pr
        else do
          let blk ← a.rhs.block 0 c depth cs
          packRhs a.pack a.mode a.k.rhs a.reg (b.side .rhs) a.rhsMem blk st.pr) >>= fun pr => do
      let (res, t) ← gemmStep a b st.pl pr r c rs cs depth st.res st.t
      pure { pl := st.pl, pr := pr, res := res, t := t }) { st with pl := pl })
    { pl := pl, pr := pr, res := res, t := t }
  pure st.t

/-! ## Specification -/

/-- The exact value of entry `(r, c)` of the product with offsets. -/
def exactEntry (t : InputScalar) (depth : Nat) (L R : Nat → Nat → UInt8) (LO RO : Nat → BitVec 32) (r c : Nat) : Int :=
  sumTo depth (fun d => (t.val (L r d) + (LO r).toInt) * (t.val (R d c) + (RO c).toInt))

/-- The memory holds the matrix `X` at the places the map describes. -/
def HoldsMatrix (mem : Mem) (m : MatrixMap) (X : Nat → Nat → UInt8) : Prop :=
  ∀ r c, r < m.rows → c < m.cols → mem (m.addr r c) = some (X r c)

/-- Conditions under which no int32 overflow occurs with the C++ rules: offsets are negated zero points of
the input type and the depth is at most 33024. -/
def NoOverflow (t : InputScalar) (mode : OvMode) (rows cols depth : Nat) (LO RO : Nat → BitVec 32) : Prop :=
  mode = .trap → depth ≤ 33024 ∧ (∀ r, r < rows → -t.hi ≤ (LO r).toInt ∧ (LO r).toInt ≤ -t.lo) ∧
    (∀ c, c < cols → -t.hi ≤ (RO c).toInt ∧ (RO c).toInt ≤ -t.lo)

/-- The arguments of a call describe the product of `L` and `R` with offsets `LO`, `RO`. -/
structure GemmArgs.Describe {β : Type} (a : GemmArgs β) (t : InputScalar) (L R : Nat → Nat → UInt8)
    (LO RO : Nat → BitVec 32) : Prop where
  lhs : HoldsMatrix a.lhsMem a.lhs L
  rhs : HoldsMatrix a.rhsMem a.rhs R
  lrows : a.lhs.rows = a.result.rows
  rcols : a.rhs.cols = a.result.cols
  depth : a.lhs.cols = a.rhs.rows
  lo : a.lhsOffset.Is .col a.result.rows LO
  ro : a.rhsOffset.Is .row a.result.cols RO
  fits : NoOverflow t a.mode a.result.rows a.result.cols a.lhs.cols LO RO

/-- `kRegisterSize` is 16 or 32 (internal/common.h:111-115); the proofs only use this, that the kernel
meets its contract and that the packing routine has the effect it is meant to have. -/
structure GemmArgs.Kernel {β : Type} (a : GemmArgs β) (t : InputScalar) (N : KernelNeeds) : Prop where
  wf : a.k.WF a.reg
  run : KernelMeets a.mode a.k a.reg N a.run
  inputLhs : a.k.lhs.input = t
  inputRhs : a.k.rhs.input = t
  packLhs : PackerMeetsFor a.pack a.mode a.k.lhs a.reg a.lhs.order.lhsSide
  packRhs : PackerMeetsFor a.pack a.mode a.k.rhs a.reg a.rhs.order.rhsSide
  regDvd : a.reg ∣ 33024

/-- The values the kernel will see, `0` for padding included, are in its range. -/
structure GemmArgs.Within {β : Type} (a : GemmArgs β) (N : KernelNeeds)
    (L R : Nat → Nat → UInt8) : Prop where
  pad : N.pair 0 0
  int : N.int → roundUp a.k.kDepth a.lhs.cols ≤ 2147483647
  val : ∀ i j d, i < a.result.rows → j < a.result.cols → d < a.lhs.cols →
    N.pair (a.k.lhs.unwrap (L i d)) (a.k.rhs.unwrap (R d j))

end Gemmlowp
