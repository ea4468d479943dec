import Verif.EightBit
import Verif.MetaArm
/-!
# eight_bit_int_gemm.cc with `GEMMLOWP_USE_META_FASTPATH` on ARM

There is one memory for `a` and `b`: what may be read of it are the entries of the two matrices.
-/
namespace Gemmlowp
namespace Meta

/-- The memory of the operands as the other parts of the model take it. -/
def Env.bytes (e : Env) : Mem := fun p => if e.readable (p : Nat) then some (UInt8.ofBitVec (e.mem (p : Nat))) else none

/-- eight_bit_int_gemm.cc:158 and 257, 264: after `AssureSize` the scratch memory starts at `buffer_32_` and has the
room that `Scratch` says. -/
def Env.withScratch (e : Env) (sc : EbScratch) : Env := { e with base := sc.buf, cap := sc.buf + sc.room }

/-- The two branches of eight_bit_int_gemm.cc:257-271 and 283-295: the product, or, if the result consists of
columns, the product of the operands exchanged. `gemm_q8_scratch` and `gemm_f_scratch` do not depend on the sizes. -/
def metaGemm {β : Type} (op : Env → LegacyOp (Int → BitVec 8) β) (e : Env) (hw maxThreads : Int) (lhs rhs m n k : Nat)
    (lhsOffset rhsOffset : Int) (tc : Bool) (ldc result : Nat) (sc : EbScratch) (p : Nat) (s : Int → BitVec 8) :
    M (List (List (Nat × β)) × EbScratch) := do
  if isRowMajorOrVector tc ldc m n then
    let req ← gemmScratch hw maxThreads
    let sc ← sc.assureSize req p
    let ls ← multiThreadGemm (op (e.withScratch sc)) hw maxThreads sc.buf lhs rhs m n k lhsOffset rhsOffset result s
    pure (ls, sc)
  else
    let req ← gemmScratch hw maxThreads
    let sc ← sc.assureSize req p
    let ls ← multiThreadGemm (op (e.withScratch sc)) hw maxThreads sc.buf rhs lhs n m k rhsOffset lhsOffset result s
    pure (ls, sc)

/-- eight_bit_int_gemm.cc:248-271 `MetaGemmQuantized8Bit`. -/
def metaGemmQuantized8Bit (e : Env) (hw maxThreads : Int) (lhs rhs m n k : Nat) (lhsOffset rhsOffset : Int)
    (sumOffset mult shift : Int) (tc : Bool) (ldc result : Nat) (sc : EbScratch) (p : Nat) (s : Int → BitVec 8) :
    M (List (List (Nat × BitVec 8)) × EbScratch) :=
  metaGemm (fun e => q8Legacy e sumOffset mult shift) e hw maxThreads lhs rhs m n k lhsOffset rhsOffset tc ldc result
    sc p s

/-- eight_bit_int_gemm.cc:273-296 `MetaGemmFloat`; `result` is in bytes. -/
def metaGemmFloat (e : Env) (hw maxThreads : Int) (lhs rhs m n k : Nat) (lhsOffset rhsOffset : Int)
    (scale : BitVec 32) (tc : Bool) (ldc result : Nat) (sc : EbScratch) (p : Nat) (s : Int → BitVec 8) :
    M (List (List (Nat × BitVec 32)) × EbScratch) :=
  metaGemm (fun e => f32Legacy e scale) e hw maxThreads lhs rhs m n k lhsOffset rhsOffset tc ldc result sc p s

/-- What a call of `EightBitIntGemm` sets to work: the tasks of the fast path with their stores, or the products of
the standard path. -/
inductive EbWork
  | fast (ls : List (List (Nat × BitVec 8)))
  | standard (ps : List (Plan Int))

/-- The stores in the order in which they happen.  The tasks of the fast path run at the same time: any order. -/
def EbWork.Outcome : EbWork → Trace Int → Prop
  | .fast ls, t => t.Perm (ls.flatten.map fun w => (w.1, (w.2.toNat : Int)))
  | .standard ps, t => Outcomes ps t

/-- eight_bit_int_gemm.cc:301-336 `EightBitIntGemm` with a `uint8` result and with the fast path.  `hw` is the number
of processors, `sc` the scratch memory, `p` the address of a new scratch array. -/
def eightBitIntGemmMeta (e : Env) (hw : Int) (env : BitDepthParams → Gemmlowp.Env) (maxThreads : Int) (ta tb tc : Bool)
    (x : EbArgs) (cOffset cMult cShift : BitVec 32) (bd : BitDepthSetting) (sc : EbScratch) (p : Nat)
    (s : Int → BitVec 8) : M (EbWork × EbScratch) :=
  if canHandleMetaFastpath ta tb tc x.m x.n x.k x.lda x.ldb x.ldc bd then do
    let r ← metaGemmQuantized8Bit e hw maxThreads x.a x.b x.m x.n x.k x.aOffset.toInt x.bOffset.toInt cOffset.toInt
      cMult.toInt cShift.toInt tc x.ldc x.c sc p s
    pure (.fast r.1, r.2)
  else do
    let ps ← eightBitIntGemm env maxThreads ta tb tc x cOffset cMult cShift bd
    pure (.standard ps, sc)

end Meta
end Gemmlowp
