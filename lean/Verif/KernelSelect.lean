import Verif.X86
import Verif.Neon64
import Verif.Neon32
import Verif.Neon12
import Verif.Msa
import Verif.PackSimd
import Verif.OutBuild
/-!
# The choice of a kernel

internal/kernel_default.h chooses the kernel at compile time, from the architecture and from the ranges
of operands that the user declares (public/bit_depth.h).  Modelled are the three Boolean template
parameters computed from the ranges, the explicit specialisations of each architecture, and the rules by
which C++ resolves a class template with explicit and partial specialisations.
-/
namespace Gemmlowp

open Vec
open Asm (sse32Format sse64Format avx2Format sse32Kernel sse64Kernel avx2Kernel)

/-- The branches of the `#if` at internal/kernel_default.h:71-110.  `neon64Dotprod` is the branch with
`GEMMLOWP_DOTPROD_KERNEL`. -/
inductive Arch
  | neon32 | neon64 | neon64Dotprod | msa | sse32 | sse64 | avx2 | reference
  deriving DecidableEq, Repr

/-- The specialisations of `PackingRegisterBlock` in a build for the architecture
(internal/pack.h:434-442; without vector instructions the generic one). -/
def packerOf : Arch → BlockPacker
  | .neon32 => PackSimd.neonPacker true
  | .neon64 | .neon64Dotprod => PackSimd.neonPacker false
  | .msa => PackSimd.msaPacker
  | .sse32 | .sse64 => PackSimd.ssePacker
  | .avx2 => PackSimd.avxPacker
  | .reference => packBlock

/-- The code of the output stages in a build for the architecture (internal/output.h:571-577; an AVX2 build
does not define `GEMMLOWP_SSE4`, and nothing includes internal/output_avx.h). -/
def outOf : Arch → OutBuild
  | .neon32 | .neon64 | .neon64Dotprod => .vec .neon
  | .msa => .vec .msa
  | .sse32 | .sse64 => .vec .sse
  | .avx2 | .reference => .scalar

/-- public/bit_depth.h:23-28 `OperandRange`. -/
structure OperandRange where
  lo : Int
  hi : Int
  deriving DecidableEq, Repr

/-- public/bit_depth.h:36-40 `BitDepthParams`. -/
structure BitDepthParams where
  lhs : OperandRange
  rhs : OperandRange
  deriving DecidableEq, Repr

/-- public/bit_depth.h:27, the `static_assert` of both ranges. -/
def BitDepthParams.Valid (p : BitDepthParams) : Prop := p.lhs.lo < p.lhs.hi ∧ p.rhs.lo < p.rhs.hi

/-- public/bit_depth.h:30-34. -/
def uint8Range : OperandRange := ⟨0, 255⟩
def uint8RangeExcludingZero : OperandRange := ⟨1, 255⟩
def int8Range : OperandRange := ⟨-128, 127⟩
def int8RangeExcludingLow : OperandRange := ⟨-127, 127⟩

/-- public/bit_depth.h:43-64; `DefaultL7R5BitDepthParams` is the first of these. -/
def defaultL8R8 : BitDepthParams := ⟨uint8Range, uint8Range⟩
def l8r8WithLhsNonzero : BitDepthParams := ⟨uint8RangeExcludingZero, uint8Range⟩
def signedL8R8WithLhsNonzero : BitDepthParams := ⟨int8RangeExcludingLow, int8Range⟩

/-- The kernels, by the names of their classes in internal/kernel_neon.h, kernel_msa.h, kernel_sse.h,
kernel_avx.h and kernel_reference.h. -/
inductive KName
  | neon32Kernel12x4Depth2
  | neon32Kernel12x4Depth2Assuming12BitProducts
  | neon32LhsNonzero
  | neon32LhsNonzeroInt8Inputs
  | neon64Kernel12x8Depth2
  | neon64Kernel12x8Depth4Dotprod
  | neon64LhsNonzero
  | neon64LhsNonzeroInt8Inputs
  | msaKernel12x8Depth2
  | msaLhsNonzero
  | sse32Kernel4x4Depth2
  | sse64Kernel12x4Depth2
  | avx2Kernel24x8Depth2
  | reference
  deriving DecidableEq, Repr

/-- The explicit specialisations of `DefaultKernelImpl` (internal/kernel_default.h:71-110). -/
def explicitKernel : Arch → Bool → Bool → Bool → Option KName
  | .neon32, false, true, false => some .neon32Kernel12x4Depth2
  | .neon32, true, true, false => some .neon32Kernel12x4Depth2Assuming12BitProducts
  | .neon32, false, true, true => some .neon32LhsNonzero
  | .neon32, false, false, true => some .neon32LhsNonzeroInt8Inputs
  | .neon64Dotprod, false, true, false => some .neon64Kernel12x8Depth4Dotprod
  | .neon64Dotprod, false, false, true => some .neon64LhsNonzeroInt8Inputs
  | .neon64, false, true, false => some .neon64Kernel12x8Depth2
  | .neon64, false, true, true => some .neon64LhsNonzero
  | .neon64, false, false, true => some .neon64LhsNonzeroInt8Inputs
  | .msa, false, true, false => some .msaKernel12x8Depth2
  | .msa, false, true, true => some .msaLhsNonzero
  | .sse32, false, true, false => some .sse32Kernel4x4Depth2
  | .sse64, false, true, false => some .sse64Kernel12x4Depth2
  | .avx2, false, true, false => some .avx2Kernel24x8Depth2
  | .reference, false, true, false => some .reference
  | _, _, _, _ => none

/-- What `DefaultKernelImpl<m, u, l>` is: a class derived from a kernel; ill-formed, because two partial
specialisations match and neither is more specialised; or the empty primary template, which has no
`Format`, so that using it does not compile. -/
inductive Choice
  | kernel (n : KName)
  | ambiguous
  | empty
  deriving DecidableEq, Repr

/-- internal/kernel_default.h:28-44: an explicit specialisation if there is one, else the partial
specialisation `<true, true, l>`, which derives from `<false, true, l>`, or the partial specialisation
`<m, true, true>`, which derives from `<m, true, false>`, else the primary template.  Every derivation
turns a `true` into `false`, so that the depth of derivations is at most 2; the first argument is a bound
on it. -/
def resolve (a : Arch) : Nat → Bool → Bool → Bool → Choice
  | 0, _, _, _ => .empty
  | fuel + 1, m, u, l =>
    match explicitKernel a m u l with
    | some n => .kernel n
    | none =>
      if m && u && l then .ambiguous
      else if m && u then resolve a fuel false true l
      else if u && l then resolve a fuel m true false
      else .empty

/-- internal/kernel_default.h:46-55 `DefaultKernel`. -/
def selectKernel (a : Arch) (p : BitDepthParams) : Choice :=
  resolve a 3 (decide (p.lhs.hi * p.rhs.hi < 4096)) (decide (0 ≤ p.lhs.lo))
    (decide (0 < p.lhs.lo) || (decide (p.lhs.hi ≤ 127) && decide (-128 < p.lhs.lo)))

/-- The kernels that add two products of 8-bit operands in 16 bits (the comments at
internal/kernel_neon.h:700-721; the same scheme in the other classes). -/
def KName.addsTwo : KName → Bool
  | .neon32LhsNonzero | .neon32LhsNonzeroInt8Inputs | .neon64LhsNonzero
  | .neon64LhsNonzeroInt8Inputs | .msaLhsNonzero => true
  | _ => false

/-- The kernels whose inputs are `int8` (internal/kernel_neon.h:927-936, 1279-1288): the packed operands
are the inputs themselves. -/
def KName.int8Inputs : KName → Bool
  | .neon32LhsNonzeroInt8Inputs | .neon64LhsNonzeroInt8Inputs => true
  | _ => false

/-- The type of the matrices that a kernel multiplies. -/
def KName.input (n : KName) : InputScalar := if n.int8Inputs then .int8 else .uint8

/-- internal/kernel.h:231-247 `ZeroPointInputValue`: what packing subtracts from an input. -/
def KName.zeroPoint (n : KName) : Int :=
  if n.addsTwo && !n.int8Inputs then 128 else 0

/-- internal/kernel_default.h:101-107 `DefaultReferenceKernel`. -/
def defaultReferenceFormat : KernelFormat where
  lhs := { cw := 4, cd := 16, order := .widthMajor, cells := 1, scalar := .uint8 }
  rhs := { cw := 4, cd := 16, order := .widthMajor, cells := 1, scalar := .uint8 }

/-- The models of the kernels, with the register size of the architecture
(internal/common.h `kRegisterSize`).  The kernels for `int8` inputs are derived from those for operands made
from `uint8` inputs and differ in the format only. -/
inductive KernelIs (mode : OvMode) : KName → Nat → KernelFormat → KernelRun → Prop
  | neon32 (x0) : KernelIs mode .neon32Kernel12x4Depth2 16 neon32Format (neon32Kernel x0)
  | twelve (x0) : KernelIs mode .neon32Kernel12x4Depth2Assuming12BitProducts 16 twelveFormat
      (twelveKernel x0)
  | lnz32 (x0) : KernelIs mode .neon32LhsNonzero 16 lnz32Format (lnz32Kernel x0)
  | lnz32Int8 (x0) : KernelIs mode .neon32LhsNonzeroInt8Inputs 16 lnz32Int8Format (lnz32Kernel x0)
  | neon64 (x0) : KernelIs mode .neon64Kernel12x8Depth2 16 neon64Format (neon64Kernel x0)
  | dotprod (x0) : KernelIs mode .neon64Kernel12x8Depth4Dotprod 16 dotprodFormat (dotprodKernel x0)
  | lnz64 (x0) : KernelIs mode .neon64LhsNonzero 16 lnz64Format (lnz64Kernel x0)
  | lnz64Int8 (x0) : KernelIs mode .neon64LhsNonzeroInt8Inputs 16 lnz64Int8Format (lnz64Kernel x0)
  | msa (x0) : KernelIs mode .msaKernel12x8Depth2 16 msaFormat (msaKernel x0)
  | msaLnz (x0) : KernelIs mode .msaLhsNonzero 16 msaLnzFormat (msaLnzKernel x0)
  | sse32 (x0) : KernelIs mode .sse32Kernel4x4Depth2 16 sse32Format (sse32Kernel x0 0)
  | sse64 (x0) : KernelIs mode .sse64Kernel12x4Depth2 16 sse64Format (sse64Kernel x0 0)
  | avx2 (x0) (slack : Nat) : 8 ≤ slack →
      KernelIs mode .avx2Kernel24x8Depth2 32 avx2Format (avx2Kernel x0 slack)
  | reference : KernelIs mode .reference 16 defaultReferenceFormat
      (referenceKernel mode defaultReferenceFormat)

end Gemmlowp
