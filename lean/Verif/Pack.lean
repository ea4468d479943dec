import Verif.Map
import Verif.BlockParams
/-!
# internal/pack.h: packing a side (LHS or RHS) of the product
-/
namespace Gemmlowp

/-- Memory holding input matrices: a partial map from addresses to bytes.  Reading an address at
which nothing is known to be stored is a fault. -/
abbrev Mem := Nat → Option UInt8

/-- Load a byte of input memory. -/
def Mem.read (m : Mem) (a : Nat) : M UInt8 :=
  match m a with
  | some v => .ok v
  | none => .error .oob

/-- A local byte buffer seen as memory. -/
def Buf.toMem (b : Buf UInt8) : Mem := fun a => if a < b.size then some (b.get a) else none

/-- internal/pack.h:137 `SideMapOrder`. -/
inductive SideMapOrder | widthMajor | depthMajor
  deriving DecidableEq, Repr

/-- internal/pack.h:142-154 `SideMap`. -/
structure SideMap where
  base : Nat
  width : Nat
  depth : Nat
  stride : Nat
  order : SideMapOrder
  deriving DecidableEq, Repr

namespace SideMap

/-- internal/pack.h:151-154, the constructor without stride. -/
def mk3 (order : SideMapOrder) (base width depth : Nat) : SideMap :=
  { base, width, depth, order
    stride := match order with | .widthMajor => depth | .depthMajor => width }

/-- internal/pack.h:162-164 -/
def widthStride (m : SideMap) : Nat := match m.order with | .depthMajor => 1 | .widthMajor => m.stride
/-- internal/pack.h:165-167 -/
def depthStride (m : SideMap) : Nat := match m.order with | .widthMajor => 1 | .depthMajor => m.stride

/-- internal/pack.h:169-171 `data(w, d)`. -/
def addr (m : SideMap) (w d : Nat) : Nat := m.base + w * m.widthStride + d * m.depthStride

/-- internal/pack.h:175-184 `block`. -/
def block (m : SideMap) (startWidth startDepth blockWidth blockDepth : Nat) : M SideMap := do
  assertM (decide (startWidth + blockWidth ≤ m.width))
  assertM (decide (startDepth + blockDepth ≤ m.depth))
  pure { base := m.addr startWidth startDepth, width := blockWidth, depth := blockDepth,
         stride := m.stride, order := m.order }

end SideMap

/-- internal/pack.h:46-128 `PackedSideBlock`: the two buffers reserved at 55-58 and the cursor
`pos_` (127).  Each buffer is its own object here; that the allocator really hands out disjoint
blocks is proved separately (`Verif.Allocator`). -/
structure PackedSide where
  data : Buf UInt8
  sums : Buf (BitVec 32)
  pos : Nat

/-- internal/pack.h:63-67 `seek_run`. -/
def PackedSide.seekRun (p : SideParams) (ps : PackedSide) (startWidth startDepth : Nat) :
    PackedSide :=
  { ps with pos := p.l2_width * startDepth + startWidth * min p.l1_depth (p.l2_depth - startDepth) }

/-- `memcpy(dst + dstOff, src + srcOff, n)` from input memory into a local buffer. -/
def memcpy (dst : Buf UInt8) (dstOff : Nat) (src : Mem) (srcOff n : Nat) : M (Buf UInt8) :=
  forLoop 0 n 1 (fun i b => do
    let v ← src.read (srcOff + i)
    b.write (dstOff + i) v) dst

/-- internal/pack.h:242-258 `MakeCompleteSrc`: the contents of `buf_` (the map over it is
`completeMap`). -/
def makeCompleteSrc (f : SideFormat) (reg : Nat) (mem : Mem) (src : SideMap) : M (Buf UInt8) :=
  let buf : Buf UInt8 := { size := f.kw * reg, get := fun _ => UInt8.ofNat f.zp }
  match src.order with
  | .widthMajor =>
    forLoop 0 src.width 1 (fun w b => memcpy b (w * reg) mem (src.addr w 0) src.depth) buf
  | .depthMajor =>
    forLoop 0 src.depth 1 (fun d b => memcpy b (d * f.kw) mem (src.addr 0 d) src.width) buf

/-- internal/pack.h:256-257: the map over `buf_`. -/
def completeMap (f : SideFormat) (reg : Nat) (order : SideMapOrder) : SideMap :=
  SideMap.mk3 order 0 f.kw reg

/-- Conversion of an int16 to uint8 (internal/pack.h:279): the low 8 bits. -/
def toByte (x : Int) : UInt8 := UInt8.ofNat (x % 256).toNat

/-- internal/pack.h:273-284: pack one cell at `dstPtr`; `sumsPtr` is
`cell_sums_of_each_slice_ptr`. -/
def packCell (mode : OvMode) (f : SideFormat) (mem : Mem) (cell : SideMap) (dstPtr sumsPtr : Nat)
    (ps : PackedSide) : M PackedSide :=
  forLoop 0 f.cw 1 (fun w ps => do
    let (ps, sum) ← forLoop 0 f.cd 1 (fun d (st : PackedSide × BitVec 32) => do
      let srcVal ← mem.read (cell.addr w d)
      let unwrapped : Int := (srcVal.toNat : Int) - f.zp
      let off ← offsetIntoCell f w d
      let data ← st.1.data.write (dstPtr + off) (toByte unwrapped)
      let sum ← add32 mode st.2 (BitVec.ofInt 32 unwrapped)
      pure ({ st.1 with data := data }, sum)) (ps, 0#32)
    let old ← ps.sums.read (sumsPtr + w)
    let new ← add32 mode old sum
    let sums ← ps.sums.write (sumsPtr + w) new
    pure { ps with sums := sums }) ps

/-- internal/pack.h:262-289 `Pack`, from the complete source block `(mem, src)`.  It does not compile for
int8 inputs, since a map over uint8 (271) cannot be made from one over int8; here it is the fault `badOp`. -/
def packBlock (mode : OvMode) (f : SideFormat) (reg : Nat) (mem : Mem) (src : SideMap)
    (startWidth : Nat) (ps : PackedSide) : M PackedSide :=
  if f.input = .int8 then .error .badOp else do
  let (ps', _) ← forLoop 0 reg f.cd (fun csd (st : PackedSide × Nat) =>
    forLoop 0 f.kw f.cw (fun csw (st : PackedSide × Nat) => do
      let cell ← src.block csw csd f.cw f.cd
      let ps ← packCell mode f mem cell st.2 (startWidth + csw) st.1
      pure (ps, st.2 + f.cellSize)) st) (ps, ps.pos)
  pure { ps' with pos := ps.pos + f.cells * reg / f.cd * f.cellSize }

/-- The function `Pack` of a specialisation of `PackingRegisterBlock` (internal/pack.h:292-294): which
one is used depends on the order of the source, on the format and on the instruction set the library
is built for.  `packBlock` is the generic one; the others are in `Verif.PackSimd`. -/
abbrev BlockPacker := OvMode → SideFormat → Nat → Mem → SideMap → Nat → PackedSide → M PackedSide

/-- internal/pack.h:366-392 `PackRun`. -/
def packRun (pb : BlockPacker) (mode : OvMode) (f : SideFormat) (reg : Nat) (mem : Mem) (src : SideMap)
    (startWidth width startDepth depth : Nat) (ps : PackedSide) : M PackedSide := do
  if width = f.kw then
    let aligned := roundDown reg depth
    (if aligned ≠ 0 then
        forLoop 0 aligned reg (fun d ps => do
          let blk ← src.block startWidth (startDepth + d) width reg
          pb mode f reg mem blk startWidth ps) ps
      else pure ps) >>= fun ps =>
    if aligned < depth then do
      let blk ← src.block startWidth (startDepth + aligned) width (depth - aligned)
      let buf ← makeCompleteSrc f reg mem blk
      pb mode f reg buf.toMem (completeMap f reg src.order) startWidth ps
    else pure ps
  else do
    assertM (decide (width < f.kw))
    forLoop 0 depth reg (fun d ps => do
      let ds := min reg (depth - d)
      let blk ← src.block startWidth (startDepth + d) width ds
      let buf ← makeCompleteSrc f reg mem blk
      pb mode f reg buf.toMem (completeMap f reg src.order) startWidth ps) ps

/-- internal/pack.h:340-346 `PackL1`. -/
def packL1 (pb : BlockPacker) (mode : OvMode) (f : SideFormat) (reg : Nat) (p : SideParams) (mem : Mem)
    (src : SideMap) (startWidth width startDepth depth : Nat) (ps : PackedSide) : M PackedSide :=
  forLoop 0 width f.kw (fun w ps =>
    let ws := min f.kw (width - w)
    packRun pb mode f reg mem src (startWidth + w) ws startDepth depth
      (ps.seekRun p (startWidth + w) startDepth)) ps

/-- internal/pack.h:319-336 `PackL2`.  The `memset` of the sums is modelled as replacing the
contents of the whole buffer, which has exactly `l2_width` elements.  Prefetching is omitted. -/
def packL2 (pb : BlockPacker) (mode : OvMode) (f : SideFormat) (reg : Nat) (p : SideParams) (mem : Mem)
    (src : SideMap) (ps : PackedSide) : M PackedSide := do
  if ps.sums.size < p.l2_width then throw .oob
  let ps := { ps with sums := { ps.sums with
    get := fun i => if i < p.l2_width then 0#32 else ps.sums.get i } }
  forLoop 0 src.depth p.l1_depth (fun d ps =>
    let ds := min p.l1_depth (src.depth - d)
    forLoop 0 src.width p.l1_width (fun w ps =>
      let ws := min p.l1_width (src.width - w)
      packL1 pb mode f reg p mem src w ws d ds ps) ps) ps

/-- The order of an LHS as a side: rows are its width (internal/pack.h:408-410). -/
def MapOrder.lhsSide : MapOrder → SideMapOrder
  | .rowMajor => .widthMajor
  | .colMajor => .depthMajor

/-- The order of an RHS as a side: columns are its width (internal/pack.h:424-426). -/
def MapOrder.rhsSide : MapOrder → SideMapOrder
  | .colMajor => .widthMajor
  | .rowMajor => .depthMajor

/-- internal/pack.h:403-415 `PackLhs`. -/
def packLhs (pb : BlockPacker) (mode : OvMode) (f : SideFormat) (reg : Nat) (p : SideParams) (mem : Mem)
    (src : MatrixMap) (ps : PackedSide) : M PackedSide :=
  packL2 pb mode f reg p mem
    { base := src.base, width := src.rows, depth := src.cols, stride := src.stride
      order := src.order.lhsSide } ps

/-- internal/pack.h:418-430 `PackRhs`. -/
def packRhs (pb : BlockPacker) (mode : OvMode) (f : SideFormat) (reg : Nat) (p : SideParams) (mem : Mem)
    (src : MatrixMap) (ps : PackedSide) : M PackedSide :=
  packL2 pb mode f reg p mem
    { base := src.base, width := src.cols, depth := src.rows, stride := src.stride
      order := src.order.rhsSide } ps

end Gemmlowp
