import Verif.Base
/-!
# standalone/neon-gemm-kernel-benchmark.cc: the depth at which a kernel is timed
-/
namespace Gemmlowp.BenchDepth

/-- An `int` result; overflow is undefined. -/
def intM (x : Int) : M Int := if InI32 x then .ok x else .error .overflow

/-- Lines 5793-5796 `RoundDown<kCacheLineSize>` of an `int`.  The modulus is `unsigned`, so `i` is converted for `%` and
for `-`, and the result converted back. -/
def roundDown (i : Int) : Int :=
  let u := i % 4294967296
  let v := (u - u % 64) % 4294967296
  if v < 2147483648 then v else v - 4294967296

/-- Sizes of a kernel: widths of the sides, bytes of an operand and of an accumulator. -/
structure Sizes where
  lw : Nat
  rw : Nat
  opBytes : Nat
  accBytes : Nat
  deriving DecidableEq, Repr

/-- `kAccumulatorBytes`, lines 5816-5818. -/
def Sizes.accumulators (z : Sizes) : Nat := z.accBytes * z.lw * z.rw

/-- `kBytesPerUnitOfDepth`, lines 5822-5824. -/
def Sizes.perDepth (z : Sizes) : Nat := z.opBytes * (z.lw + z.rw)

/-- Lines 5805-5842 `BenchmarkDepthToFitInCache`, with `kb` the value of `CacheSizeInKB()` (lines 5798-5803, the
environment variable `CACHE_SIZE_KB` or 16).  `Int.tdiv` is the division of C++.  The two constants are positive, as
widths and sizes of types are. -/
def depthToFit (z : Sizes) (kb : Int) : M Int := do
  let bytes ← intM (1024 * kb)
  let conservative ← intM (bytes - 128)
  let rest ← intM (conservative - z.accumulators)
  let unrounded := Int.tdiv rest z.perDepth
  .ok (roundDown (min 1024 unrounded))

end Gemmlowp.BenchDepth
