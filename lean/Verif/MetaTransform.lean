import Verif.Meta
import Verif.MetaTransforms
import Verif.MetaBiasAdd
/-!
# meta/: the one-dimensional transformations on 64-bit ARM

`Transform1D` and `MultiThreadTransform1D` with the code of meta/transform_kernels_arm_64.h.  Input and output may
overlap here: what is read is what is in memory at that moment.
-/
namespace Gemmlowp.MetaAsm

open Vec (VReg)

def Ins.loads : Ins → Bool
  | .ld1 .. => true
  | .ldLane .. => true
  | _ => false

def Ins.stores : Ins → Bool
  | .st1 .. => true
  | .stLane .. => true
  | _ => false

/-- No load comes after a store. -/
def loadsFirst : List Ins → Bool
  | [] => true
  | i :: l => if i.stores then l.all fun j => !j.loads else loadsFirst l

/-- A straight-line part that reads memory as the stores up to now have left it.  For code with `loadsFirst` that is
what is in memory when it loads. -/
def execM (f : FloatOps) (m : Int → BitVec 8) (l : List Ins) (s : St VReg Int) : St VReg Int :=
  exec (machine f (memAfter s.wr m)) l s

/-- The loop, at most `fuel` passes. -/
def loopM (f : FloatOps) (m : Int → BitVec 8) (body : List Ins) (c : Cond) : Nat → St VReg Int → Option (St VReg Int)
  | 0, _ => none
  | fuel + 1, s =>
    let s := execM f m body s
    if c.holds (s.x .flags) then loopM f m body c fuel s else some s

/-- The whole code.  `none`: the loop misses its end, see `Prog.run`, or `execM` does not describe the code. -/
def Prog.runM (p : Prog) (f : FloatOps) (m : Int → BitVec 8) (s : St VReg Int) : Option (St VReg Int) :=
  if loadsFirst p.init && loadsFirst p.body && loadsFirst p.tail then
    let s := execM f m p.init s
    if p.skip && decide (s.x .flags = 0) then some (execM f m p.tail s)
    else (loopM f m p.body p.cond ((s.x .count).toNat + 1) s).map (execM f m p.tail)
  else none

/-- The rows, at most `fuel` of them. -/
def rowsM (f : FloatOps) (m : Int → BitVec 8) (row : Prog) : Nat → St VReg Int → Option (St VReg Int)
  | 0, _ => none
  | fuel + 1, s =>
    match row.runM f m s with
    | none => none
    | some s => if Cond.ne.holds (s.x .flags) then rowsM f m row fuel s else some s

def RowsProg.runM (p : RowsProg) (f : FloatOps) (m : Int → BitVec 8) (s : St VReg Int) : Option (St VReg Int) :=
  if loadsFirst p.init then
    let s := execM f m p.init s
    rowsM f m p.row ((s.x .rows).toNat + 1) s
  else none

end Gemmlowp.MetaAsm

namespace Gemmlowp.Meta

open MetaAsm

/-- What a transformation finds when it runs: the floating-point unit, which places of memory may be read and
written, and what is in the registers that are not operands (anything). -/
structure TEnv where
  f : FloatOps
  readable : Int → Bool
  writable : Int → Bool
  v : Nat → Vec.VReg
  x : X → Int

/-- meta/transform_kernels.h:23-28 `Quantize`; a `float` is given by its bits. -/
structure Quantize where
  rangeMin : BitVec 32
  rangeOffset : BitVec 32
  rangeScale : BitVec 32

/-- meta/transform_kernels.h:30-35 `Dequantize`. -/
structure Dequantize where
  rangeMin : BitVec 32
  rangeOffset : BitVec 32
  rangeScale : BitVec 32

/-- meta/transform_kernels.h:37-45 `Requantize`. -/
structure Requantize where
  inputRangeMin : BitVec 32
  inputRangeOffset : BitVec 32
  inputRangeScale : BitVec 32
  outputRangeMin : BitVec 32
  outputRangeOffset : BitVec 32
  oneOverOutputRangeScale : BitVec 32

/-- meta/transform_kernels.h:47-52 `MinMax<uint8_t>`. -/
structure MinMax where
  min : BitVec 8
  max : BitVec 8

/-- meta/transform_kernels.h:54-67 `BiasAdd<uint8_t>`; `bias` is an address.  `input_range_offset` and
`bias_range_offset` are not here: no code uses them. -/
structure BiasAdd where
  inputRangeMin : BitVec 32
  inputRangeScale : BitVec 32
  biasRangeMin : BitVec 32
  biasRangeScale : BitVec 32
  outputRangeMin : BitVec 32
  outputRangeOffset : BitVec 32
  oneOverOutputRangeScale : BitVec 32
  rows : Nat
  bias : Nat

/-- The operands, e.g. meta/transform_kernels_arm_64.h:1888-1892.  Operands that the code for a transformation does
not have are not set. -/
def Quantize.par (p : Quantize) (x : Par → Int) : Par → Int
  | .rangeMin => p.rangeMin.toInt
  | .rangeOffset => p.rangeOffset.toInt
  | .rangeScale => p.rangeScale.toInt
  | q => x q

def Dequantize.par (p : Dequantize) (x : Par → Int) : Par → Int
  | .rangeMin => p.rangeMin.toInt
  | .rangeOffset => p.rangeOffset.toInt
  | .rangeScale => p.rangeScale.toInt
  | q => x q

def Requantize.par (p : Requantize) (x : Par → Int) : Par → Int
  | .inputMin => p.inputRangeMin.toInt
  | .inputOffset => p.inputRangeOffset.toInt
  | .inputScale => p.inputRangeScale.toInt
  | .outputMin => p.outputRangeMin.toInt
  | .outputOffset => p.outputRangeOffset.toInt
  | .outputInvScale => p.oneOverOutputRangeScale.toInt
  | q => x q

def MinMax.par (p : MinMax) (x : Par → Int) : Par → Int
  | .min => p.min.toNat
  | .max => p.max.toNat
  | q => x q

def BiasAdd.par (p : BiasAdd) (x : Par → Int) : Par → Int
  | .inputMin => p.inputRangeMin.toInt
  | .inputScale => p.inputRangeScale.toInt
  | .biasMin => p.biasRangeMin.toInt
  | .biasScale => p.biasRangeScale.toInt
  | .outputMin => p.outputRangeMin.toInt
  | .outputOffset => p.outputRangeOffset.toInt
  | .outputInvScale => p.oneOverOutputRangeScale.toInt
  | q => x q

def transformRegs (par : (Par → Int) → Par → Int) (count input output : Nat) (x : X → Int) : X → Int
  | .inp => input
  | .out => output
  | .count => count
  | .par p => par (fun p => x (.par p)) p
  | r => x r

/-- The stores of the code if it may read and write where it does. -/
def checked (e : TEnv) : Option (St Vec.VReg Int) → M (List (Write Vec.VReg Int))
  | none => .error .diverge
  | some t => if readsIn e.readable t.rd && writesIn e.writable t.wr then .ok t.wr else .error .oob

/-- meta/transform_kernels_arm_64.h `Transform1DKernel<.., kernel_size, leftovers>::Transform`: its stores, last one
first.  Without a specialisation the program ends (meta/transform_kernels.h:69-158). -/
def transformKernel (progs : Nat → Option Prog) (e : TEnv) (par : (Par → Int) → Par → Int) (mem : Int → BitVec 8)
    (count input output kernelSize leftovers : Nat) : M (List (Write Vec.VReg Int)) :=
  if kernelSize ≠ 16 then .error .abort
  else match progs leftovers with
    | none => .error .abort
    | some g => checked e (g.runM e.f mem ⟨e.v, transformRegs par count input output e.x, [], [], []⟩)

/-- The operands of `BiasAdd`, e.g. meta/transform_kernels_arm_64.h:5627-5636. -/
def biasAddRegs (p : BiasAdd) (count input output : Nat) (x : X → Int) : X → Int
  | .rows => p.rows
  | .bias => p.bias
  | r => transformRegs p.par count input output x r

def biasAddKernel (progs : Nat → Option RowsProg) (e : TEnv) (p : BiasAdd) (mem : Int → BitVec 8)
    (count input output kernelSize leftovers : Nat) : M (List (Write Vec.VReg Int)) :=
  if kernelSize ≠ 16 then .error .abort
  else match progs leftovers with
    | none => .error .abort
    | some g => checked e (g.runM e.f mem ⟨e.v, biasAddRegs p count input output e.x, [], [], []⟩)

/-- `Transform1D<Transform1DParams<float, uint8_t, Quantize>, kernel_size>`. -/
def quantize1D (e : TEnv) (p : Quantize) (mem : Int → BitVec 8) (kernelSize count input output : Nat) :=
  transform1D (transformKernel qzProg e p.par mem count input output) kernelSize count

/-- `Transform1D<Transform1DParams<uint8_t, float, Dequantize>, kernel_size>`. -/
def dequantize1D (e : TEnv) (p : Dequantize) (mem : Int → BitVec 8) (kernelSize count input output : Nat) :=
  transform1D (transformKernel dqProg e p.par mem count input output) kernelSize count

/-- `Transform1D<Transform1DParams<int32_t, uint8_t, Requantize>, kernel_size>`. -/
def requantize1D (e : TEnv) (p : Requantize) (mem : Int → BitVec 8) (kernelSize count input output : Nat) :=
  transform1D (transformKernel rqProg e p.par mem count input output) kernelSize count

/-- `Transform1D<Transform1DParams<uint8_t, uint8_t, MinMax<uint8_t>>, kernel_size>`. -/
def minMax1D (e : TEnv) (p : MinMax) (mem : Int → BitVec 8) (kernelSize count input output : Nat) :=
  transform1D (transformKernel mmProg e p.par mem count input output) kernelSize count

/-- `Transform1D<Transform1DParams<uint8_t, int32_t, BiasAdd<uint8_t>>, kernel_size>`. -/
def biasAdd1D (e : TEnv) (p : BiasAdd) (mem : Int → BitVec 8) (kernelSize count input output : Nat) :=
  transform1D (biasAddKernel baProg e p mem count input output) kernelSize count

/-- meta/multi_thread_transform.h:66-94 `MultiThreadTransform1D`: the stores of each task.  `run mem count input output`
is `Transform1D`; `OffsetInput` and `OffsetOutput` advance by elements of `si` and `so` bytes
(meta/transform_kernels.h:160-233); there is none for `BiasAdd`, so that does not compile.  Tasks run at the same time:
`seen j` is the memory that task `j` finds, apart from its own stores. -/
def multiThreadTransform1D (run : (Int → BitVec 8) → Nat → Nat → Nat → M (List (Write Vec.VReg Int))) (cost si so : Nat)
    (maxThreads : Int) (seen : Nat → Int → BitVec 8) (count input output : Nat) :
    M (List (List (Write Vec.VReg Int))) :=
  prepareTransform1DTasks cost maxThreads count >>= fun o =>
  match o with
  | none => run (seen 0) count input output >>= fun l => .ok [l]
  | some ts => ts.zipIdx.mapM fun t => run (seen t.2) t.1.2 (input + si * t.1.1) (output + so * t.1.1)

end Gemmlowp.Meta
