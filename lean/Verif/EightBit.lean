import Verif.KernelSelect
import Verif.Dispatch
/-!
# eight_bit_int_gemm/eight_bit_int_gemm.cc: the interface with global state

All functions hold `GlobalMutexes::EightBitIntGemm()` from beginning to end, so that their calls are
executed one after another: a history of calls is a list.
-/
namespace Gemmlowp

/-- eight_bit_int_gemm.h:48-51 `BitDepthSetting`. -/
inductive BitDepthSetting | a8b8 | a5b7
  deriving DecidableEq, Repr

/-- The order chosen by a transposition flag (eight_bit_int_gemm.cc:81-86, 116-121). -/
def orderOf (t : Bool) : MapOrder := if t then .rowMajor else .colMajor

/-- The arguments that the two functions `EightBitIntGemm` share.  Addresses are in elements. -/
structure EbArgs where
  m : Nat
  n : Nat
  k : Nat
  aMem : Mem
  a : Nat
  aOffset : BitVec 32
  lda : Nat
  bMem : Mem
  b : Nat
  bOffset : BitVec 32
  ldb : Nat
  c : Nat
  ldc : Nat

/-- eight_bit_int_gemm.cc:68-105 `EightBitIntGemmImpl`.  `env p` is the environment of a product
compiled for the bit depth parameters `p`; `DefaultL7R5BitDepthParams` is `DefaultL8R8BitDepthParams`. -/
def eightBitIntGemmImpl (env : BitDepthParams → Env) (ta tb tc : Bool) (x : EbArgs)
    (cOffset cMult cShift : BitVec 32) (bd : BitDepthSetting) : M (Plan Int) :=
  let lhs : MatrixMap := { base := x.a, rows := x.m, cols := x.k, stride := x.lda, order := orderOf ta }
  let rhs : MatrixMap := { base := x.b, rows := x.k, cols := x.n, stride := x.ldb, order := orderOf tb }
  let result : MatrixMap :=
    { base := x.c, rows := x.m, cols := x.n, stride := x.ldc, order := orderOf tc }
  match bd with
  | .a8b8 => gemm (env defaultL8R8) x.aMem lhs x.bMem rhs result x.aOffset x.bOffset cOffset cMult cShift
  | .a5b7 => gemm (env defaultL8R8) x.aMem lhs x.bMem rhs result x.aOffset x.bOffset cOffset cMult cShift

/-- eight_bit_int_gemm.cc:107-141 `EightBitIntGemmInt32Impl`.  The result, `temp_c`, is the scratch
buffer: its address is 0. -/
def eightBitIntGemmInt32Impl (env : BitDepthParams → Env) (ta tb tc : Bool) (x : EbArgs)
    (bd : BitDepthSetting) : M (Plan Int) :=
  let lhs : MatrixMap := { base := x.a, rows := x.m, cols := x.k, stride := x.lda, order := orderOf ta }
  let rhs : MatrixMap := { base := x.b, rows := x.k, cols := x.n, stride := x.ldb, order := orderOf tb }
  let result : MatrixMap :=
    { base := 0, rows := x.m, cols := x.n, stride := x.ldc, order := orderOf tc }
  match bd with
  | .a8b8 => gemmWithOutputPipeline (env defaultL8R8) x.aMem lhs x.bMem rhs result x.aOffset x.bOffset
      { stages := [], cast := .none }
  | .a5b7 => gemmWithOutputPipeline (env defaultL8R8) x.aMem lhs x.bMem rhs result x.aOffset x.bOffset
      { stages := [], cast := .none }

/-- A sequence of `GEMMLOWP_HANDLE_CASE` (eight_bit_int_gemm.cc:319-324): each runs the instance of the
template for its flags if these are the flags of the call. -/
def handleCases {α : Type} (impl : Bool → Bool → Bool → M α) (ta tb tc : Bool) :
    List (Bool × Bool × Bool) → M (List α)
  | [] => pure []
  | (x, y, z) :: rest =>
    if ta = x ∧ tb = y ∧ tc = z then do
      let r ← impl x y z
      let rs ← handleCases impl ta tb tc rest
      pure (r :: rs)
    else handleCases impl ta tb tc rest

/-- eight_bit_int_gemm.cc:326-333 and 372-379. -/
def handledCases : List (Bool × Bool × Bool) :=
  [(false, false, false), (false, false, true), (false, true, false), (false, true, true),
   (true, false, false), (true, false, true), (true, true, false), (true, true, true)]

/-- The stores of products that are computed one after another. -/
inductive Outcomes : List (Plan Int) → Trace Int → Prop
  | nil : Outcomes [] []
  | cons {p ps t ts} : Outcome p t → Outcomes ps ts → Outcomes (p :: ps) (t ++ ts)

/-- eight_bit_int_gemm.cc:301-336 `EightBitIntGemm` with a `uint8` result, without the fast path
(`GEMMLOWP_USE_META_FASTPATH`), for a context with the given maximum number of threads. -/
def eightBitIntGemm (env : BitDepthParams → Env) (maxThreads : Int) (ta tb tc : Bool) (x : EbArgs)
    (cOffset cMult cShift : BitVec 32) (bd : BitDepthSetting) : M (List (Plan Int)) :=
  handleCases (fun ta tb tc => eightBitIntGemmImpl (fun p => { env p with maxThreads := maxThreads })
    ta tb tc x cOffset cMult cShift bd) ta tb tc handledCases

/-! ## Scratch memory -/

/-- eight_bit_int_gemm.cc:143-171 `Scratch`: `size_`, and how many bytes there are from `buffer_32_` to
the end of the array; `buf` is `buffer_32_`. -/
structure EbScratch where
  size : Int
  room : Nat
  buf : Nat
  deriving DecidableEq, Repr

/-- eight_bit_int_gemm.cc:145 the constructor, and 159-163 `Clear`. -/
def EbScratch.init : EbScratch := { size := 0, room := 0, buf := 0 }

/-- eight_bit_int_gemm.cc:147-157 `AssureSize`; `p` is the address of a new array. -/
def EbScratch.assureSize (s : EbScratch) (required : Int) (p : Nat) : M EbScratch :=
  if s.size ≥ required then pure s
  else do
    let total ← cint (required + 32)
    let off := (32 - p % 32) % 32
    assertM (decide ((p + off) % 32 = 0))
    pure { size := required, room := total.toNat - off, buf := p + off }

/-- eight_bit_int_gemm.cc:358-362: the argument of `AssureSize`.  The first product is of `int`s, the
second of `size_t`s; the argument is converted to `int32_t`. -/
def floatScratchSize (tc : Bool) (m n ldc : Nat) : M Int := do
  let p ← cint (if tc then (m : Int) * ldc else (n : Int) * ldc)
  pure (BitVec.ofInt 32 (p * 4)).toInt

/-- eight_bit_int_gemm.cc:338-381, the first part of `EightBitIntGemm` with a `float` result: scratch
memory of the right size, and the product as `int32`. -/
def eightBitIntGemmFloat (env : BitDepthParams → Env) (maxThreads : Int) (ta tb tc : Bool) (x : EbArgs)
    (bd : BitDepthSetting) (s : EbScratch) (p : Nat) : M (List (Plan Int) × EbScratch) := do
  let size ← floatScratchSize tc x.m x.n x.ldc
  let s ← s.assureSize size p
  let plans ← handleCases (fun ta tb tc =>
    eightBitIntGemmInt32Impl (fun p => { env p with maxThreads := maxThreads }) ta tb tc x bd)
    ta tb tc handledCases
  pure (plans, s)

/-- eight_bit_int_gemm.cc:383-401, the second part: `c[i * ldc + j]` becomes `conv` of
`temp_c[i * ldc + j]`.  `conv v` is `static_cast<float>(v) * c_offset`, of which nothing is assumed. -/
def convertResult {F : Type} (conv : Int → F) (tc : Bool) (m n c ldc : Nat) (temp : Buf Int)
    (mem : Nat → F) : M (Nat → F) :=
  let row (i cols : Nat) (mem : Nat → F) : M (Nat → F) :=
    forLoop 0 cols 1 (fun j mem => do
      let v ← temp.read (i * ldc + j)
      pure (fun a => if a = c + i * ldc + j then conv v else mem a)) mem
  if tc then forLoop 0 m 1 (fun i mem => row i n mem) mem
  else forLoop 0 n 1 (fun i mem => row i m mem) mem

/-! ## Global state -/

/-- eight_bit_int_gemm.cc:54 `global_context`, of which the maximum number of threads matters, and 173
`global_scratch`. -/
structure EbState where
  context : Option Int
  scratch : Option EbScratch

/-- Before the first call. -/
def EbState.init : EbState := { context := none, scratch := none }

/-- eight_bit_int_gemm.cc:56-61 `GetOrCreateGlobalContext`; the default value of `max_num_threads_` is 1
(internal/multi_thread_gemm.h:563). -/
def EbState.getContext (s : EbState) : Int × EbState :=
  match s.context with
  | some n => (n, s)
  | none => (1, { s with context := some 1 })

/-- eight_bit_int_gemm.cc:175-180 `GetOrCreateGlobalScratch`. -/
def EbState.getScratch (s : EbState) : EbScratch := s.scratch.getD .init

/-- Calls of the four functions, as far as they use the global state. -/
inductive EbOp
  /-- `EightBitIntGemm` with a `uint8` result -/
  | gemm
  /-- `EightBitIntGemm` with a `float` result; `p` is the address of a new scratch array -/
  | gemmFloat (tc : Bool) (m n ldc p : Nat)
  | setMaxNumThreads (n : Int)
  | freePersistentResources

/-- One call; a product gives the maximum number of threads with which it is computed.
eight_bit_int_gemm.cc:307-308, 344-362, 404-408 and 410-414. -/
def ebStep (s : EbState) : EbOp → M (EbState × Option Int)
  | .gemm => let (n, s) := s.getContext; pure (s, some n)
  | .gemmFloat tc m n ldc p => do
    let (t, s) := s.getContext
    let size ← floatScratchSize tc m n ldc
    let sc ← s.getScratch.assureSize size p
    pure ({ s with scratch := some sc }, some t)
  | .setMaxNumThreads n => pure ({ s.getContext.2 with context := some n }, none)
  | .freePersistentResources => pure ({ context := none, scratch := none }, none)

/-- A history of calls, ending in a state. -/
def ebRun : EbState → List EbOp → M EbState
  | s, [] => pure s
  | s, op :: ops => do
    let (s, _) ← ebStep s op
    ebRun s ops

/-! ## The conditions for the fast path -/

/-- eight_bit_int_gemm.cc:189-201 `IsRowMajorOrVector`. -/
def isRowMajorOrVector (transpose : Bool) (stride rows cols : Nat) : Bool :=
  if transpose && stride == cols then true else if rows == 1 then true else false

/-- eight_bit_int_gemm.cc:203-215 `IsColumnMajorOrVector`. -/
def isColumnMajorOrVector (transpose : Bool) (stride rows cols : Nat) : Bool :=
  if !transpose && stride == rows then true else if cols == 1 then true else false

/-- eight_bit_int_gemm.cc:217-246 `CanHandleMetaFastpath`. -/
def canHandleMetaFastpath (ta tb tc : Bool) (m n k lda ldb ldc : Nat) (bd : BitDepthSetting) : Bool :=
  if bd ≠ .a8b8 ∨ k < 8 ∨ 2048 < k then false
  else if !isRowMajorOrVector ta lda m k then false
  else if !isColumnMajorOrVector tb ldb k n then false
  else if isRowMajorOrVector tc ldc m n then true
  else if isColumnMajorOrVector tc ldc m n then true
  else false

/-- Where the fast path reads entry (i, d) of `a` (`lhs` of meta/legacy_multi_thread_gemm.h: rows of `k`
bytes one after another). -/
def fastLhs (a k i d : Nat) : Nat := a + i * k + d
/-- Where it reads entry (d, j) of `b` (columns of `k` bytes one after another). -/
def fastRhs (b k d j : Nat) : Nat := b + j * k + d
/-- Where it writes entry (i, j) of `c`: eight_bit_int_gemm.cc:258-270, 282-292. -/
def fastResult (tc : Bool) (ldc m n c i j : Nat) : Nat :=
  if isRowMajorOrVector tc ldc m n then c + i * n + j else c + j * m + i

end Gemmlowp
