import Verif.MetaTransform
import Verif.MetaTransforms32
import Verif.MetaBiasAdd32
/-!
# meta/: the one-dimensional transformations on 32-bit ARM

`Transform1D` with the code of meta/transform_kernels_arm_32.h; everything else is as in `Verif.MetaTransform`.
-/
namespace Gemmlowp.MetaAsm

/-- The code of a table of routines. -/
def code32 (progs : Nat → Option Prog32) (r : Nat) : Option Prog := (progs r).map Prog32.code

def codeRows32 (progs : Nat → Option RowsProg32) (r : Nat) : Option RowsProg := (progs r).map RowsProg32.code

end Gemmlowp.MetaAsm

namespace Gemmlowp.Meta

open MetaAsm

/-- `Transform1D<Transform1DParams<float, uint8_t, Quantize>, kernel_size>` on 32-bit ARM. -/
def quantize1D32 (e : TEnv) (p : Quantize) (mem : Int → BitVec 8) (kernelSize count input output : Nat) :=
  transform1D (transformKernel (code32 qz32Prog) e p.par mem count input output) kernelSize count

/-- `Transform1D<Transform1DParams<uint8_t, float, Dequantize>, kernel_size>` on 32-bit ARM. -/
def dequantize1D32 (e : TEnv) (p : Dequantize) (mem : Int → BitVec 8) (kernelSize count input output : Nat) :=
  transform1D (transformKernel (code32 dq32Prog) e p.par mem count input output) kernelSize count

/-- `Transform1D<Transform1DParams<int32_t, uint8_t, Requantize>, kernel_size>` on 32-bit ARM.  The code has no
operand `output_range_offset`. -/
def requantize1D32 (e : TEnv) (p : Requantize) (mem : Int → BitVec 8) (kernelSize count input output : Nat) :=
  transform1D (transformKernel (code32 rq32Prog) e p.par mem count input output) kernelSize count

/-- `Transform1D<Transform1DParams<uint8_t, uint8_t, MinMax<uint8_t>>, kernel_size>` on 32-bit ARM. -/
def minMax1D32 (e : TEnv) (p : MinMax) (mem : Int → BitVec 8) (kernelSize count input output : Nat) :=
  transform1D (transformKernel (code32 mm32Prog) e p.par mem count input output) kernelSize count

/-- `Transform1D<Transform1DParams<uint8_t, int32_t, BiasAdd<uint8_t>>, kernel_size>` on 32-bit ARM. -/
def biasAdd1D32 (e : TEnv) (p : BiasAdd) (mem : Int → BitVec 8) (kernelSize count input output : Nat) :=
  transform1D (biasAddKernel (codeRows32 ba32Prog) e p mem count input output) kernelSize count

end Gemmlowp.Meta
