import Verif.Meta
import Verif.MetaStreamsRow
import Verif.MetaStreamsCol
import Verif.MetaKernels
import Verif.MetaStreamsRow32
import Verif.MetaStreamsCol32
import Verif.MetaKernels32
/-!
# meta/ on ARM: the operations with the generated code

`Stream::Pack` and `MulKernel::Multiply` as the specialisations in meta/streams_arm_64.h and
meta/quantized_mul_kernels_arm_64.h, or meta/streams_arm_32.h and meta/quantized_mul_kernels_arm_32.h, give them, in the form in which the drivers of `Verif.Meta` take them.
-/
namespace Gemmlowp.Meta

open MetaAsm

/-- meta/streams.h:306-310 and meta/quantized_mul_kernels.h:171-175: the processor decides which code is compiled. -/
inductive Arch | arm64 | arm32
  deriving DecidableEq, Repr

def Arch.row : Arch → Nat → Nat → Option Prog
  | .arm64 => rowProg
  | .arm32 => fun n l => (row32Prog n l).map Prog32.code

def Arch.col : Arch → Nat → Nat → Option Prog
  | .arm64 => colProg
  | .arm32 => fun n l => (col32Prog n l).map Prog32.code

def Arch.q8 : Arch → Nat → Nat → Option Prog
  | .arm64 => q8Prog
  | .arm32 => fun m n => (q8_32Prog m n).map Prog32.code

def Arch.i32 : Arch → Nat → Nat → Option Prog
  | .arm64 => i32Prog
  | .arm32 => fun m n => (i32_32Prog m n).map Prog32.code

def Arch.f32 : Arch → Nat → Nat → Option Prog
  | .arm64 => f32Prog
  | .arm32 => fun m n => (f32_32Prog m n).map Prog32.code

/-- What the code finds when it runs: the processor, the floating-point unit, the memory with the two operands and which places
of it may be read, the scratch memory `base` to `cap`, and what is in the registers that are not operands
(anything). -/
structure Env where
  arch : Arch
  f : FloatOps
  mem : Int → BitVec 8
  readable : Int → Bool
  base : Nat
  cap : Nat
  v : Nat → Vec.VReg
  x : X → Int

/-- What the aligned accesses of the code for 32-bit ARM ask for. -/
def Env.Aligned (e : Env) : Prop := e.arch = .arm32 → e.base % 32 = 0

/-- A place in scratch memory. -/
def Env.inScratch (e : Env) (a : Int) : Bool := decide ((e.base : Int) ≤ a ∧ a < e.cap)

/-- The operands of the packing code, e.g. meta/streams_arm_64.h:60-63. -/
def packRegs (p : StreamParams) (src dst : Nat) (x : X → Int) : X → Int
  | .inp => src
  | .out => dst
  | .stride => p.stride
  | .count => p.count
  | .mulSum => p.multiplicativeSumOffset
  | .addSum => p.additiveSumOffset
  | r => x r

/-- The specialisation for a number of lanes and of leftovers. -/
def packProg (a : Arch) : StreamKind → Nat → Nat → Option Prog
  | .rowMajorWithSum => a.row
  | .columnMajorWithSum => a.col
  | .rowMajor => fun _ _ => none

/-- meta/streams_arm_64.h and meta/streams_arm_32.h `Stream<std::uint8_t, lanes, 8, kLeft, ..>::Pack`.  A missing specialisation is
`badOp`; there the primary template would be used, which packs nothing (meta/streams.h:177-191, 241-256). -/
def packAsm (e : Env) (p : StreamParams) (lanes kLeft src dst : Nat) (s : Int → BitVec 8) : M (Int → BitVec 8) :=
  match packProg e.arch p.kind lanes kLeft with
  | none => .error .badOp
  | some g =>
    match g.run (machine e.f e.mem) ⟨e.v, packRegs p src dst e.x, [], [], []⟩ with
    | none => .error .diverge
    | some t =>
      if !alignedIn t.al then .error .misaligned
      else if readsIn e.readable t.rd && writesIn e.inScratch t.wr then .ok (memAfter t.wr s) else .error .oob

/-- One of the three kinds of kernels: the code for a size, how entries of the result are stored, and the
operands that come from the parameters of the kernel. -/
structure KernelAsm (β : Type) where
  prog : Nat → Nat → Option Prog
  entries : List (Write Vec.VReg Int) → Option (List (Int × β))
  mulOffset : Int := 0
  rounding : Int := 0
  shift : Int := 0
  scale : Int := 0

/-- The operands of a kernel, e.g. meta/quantized_mul_kernels_arm_64.h:90-95. -/
def mulRegs {β : Type} (K : KernelAsm β) (count stride pl pr res : Nat) (x : X → Int) : X → Int
  | .lhs => pl
  | .rhs => pr
  | .result => res
  | .count => count
  | .stride => stride
  | .mulOffset => K.mulOffset
  | .rounding => K.rounding
  | .shift => K.shift
  | .scale => K.scale
  | r => x r

/-- meta/quantized_mul_kernels_arm_64.h and meta/quantized_mul_kernels_arm_32.h `MulKernel<.., mm, nn, 8>::Multiply`.  What is read must be in scratch
memory; what is stored is the result of the function. -/
def mulAsm {β : Type} (e : Env) (K : KernelAsm β) (count stride mm nn pl pr res : Nat) (s : Int → BitVec 8) :
    M (List (Nat × β)) :=
  match K.prog mm nn with
  | none => .error .badOp
  | some g =>
    match g.run (machine e.f s) ⟨e.v, mulRegs K count stride pl pr res e.x, [], [], []⟩ with
    | none => .error .diverge
    | some t =>
      match K.entries t.wr with
      | none => .error .badOp
      | some l =>
        if !alignedIn t.al then .error .misaligned
        else if readsIn e.inScratch t.rd then .ok (l.map fun x => (x.1.toNat, x.2)) else .error .oob

/-- The operations of `Gemm` for these streams and this kernel.  `count` is `kernel.count`; every caller sets it
to `k`, like the counts of the streams. -/
def opsAsm {β : Type} (e : Env) (K : KernelAsm β) (count : Nat) (left right out : StreamParams) :
    MetaOps (Int → BitVec 8) β where
  packLeft := packAsm e left
  packRight := packAsm e right
  mul := mulAsm e K count out.stride

/-- `QuantizedStaticPreprocessed` with the constants of meta/legacy_single_thread_gemm.h:65-67, 109-111. -/
def q8Kernel (a : Arch) (multiplicativeOffset shift : Int) : KernelAsm (BitVec 8) where
  prog := a.q8
  entries l := some (bytesOf l)
  mulOffset := multiplicativeOffset
  rounding := 2 ^ (shift - 1).toNat
  shift := -shift

/-- `QuantizedStaticPreprocessedAsInt32`. -/
def i32Kernel (a : Arch) : KernelAsm (BitVec 32) where
  prog := a.i32
  entries := wordsOf

/-- `QuantizedStaticPreprocessedAsFloat`; the scale is a `float`, given by its bits. -/
def f32Kernel (a : Arch) (scale : BitVec 32) : KernelAsm (BitVec 32) where
  prog := a.f32
  entries := wordsOf
  scale := scale.toInt

/-- meta/legacy_single_thread_gemm.h:29-120 `gemm_q8_strided`, `gemv_q8`. -/
def q8Legacy (e : Env) (resultOffset multiplicativeOffset shift : Int) : LegacyOp (Int → BitVec 8) (BitVec 8) where
  outSize := 1
  ops left right out := opsAsm e (q8Kernel e.arch multiplicativeOffset shift) left.count left right out
  sumOffset := resultOffset
  constants := q8Constants shift
  gemvTile := q8GemvTile

/-- meta/legacy_single_thread_gemm.h:122-205 `gemm_i32_strided`, `gemv_i32`. -/
def i32Legacy (e : Env) : LegacyOp (Int → BitVec 8) (BitVec 32) where
  outSize := 4
  ops left right out := opsAsm e (i32Kernel e.arch) left.count left right out
  sumOffset := 0
  constants := .ok ()
  gemvTile := i32GemvTile

/-- meta/legacy_single_thread_gemm.h:207-290 `gemm_f_strided`, `gemv_f`. -/
def f32Legacy (e : Env) (scale : BitVec 32) : LegacyOp (Int → BitVec 8) (BitVec 32) where
  outSize := 4
  ops left right out := opsAsm e (f32Kernel e.arch scale) left.count left right out
  sumOffset := 0
  constants := .ok ()
  gemvTile := i32GemvTile

end Gemmlowp.Meta
