# Formal model of gemmlowp: design

The properties are listed in `properties.jsonl` (C01, C02, ...). The model and
the proofs are in `lean/Verif`. `MANIFEST.json` maps properties to theorems.
`seeded/LOG.jsonl` records deliberately broken variants of the model and which
theorems caught them.

## 1. Trusted base

* Lean 4.33.0's kernel. The only axioms any property theorem depends on are
  Lean's standard ones: `propext`, `Classical.choice`, `Quot.sound`.
  No `sorry`, no `native_decide`, no `bv_decide`, no added axioms.
* That the Lean definitions say what the cited C++ says. Every definition cites
  file and lines of /repo. Simplifications are stated in the comment of the
  definition and summarised in section 3.
* The C++ abstract machine as far as it is used: `int` is 32 bits two's
  complement, `std::size_t` 64 bits, integer division truncates toward zero,
  `>>` on negative values is arithmetic (implementation defined before C++20,
  universally so in practice).
* pthread mutex/condition variables and C++ atomics: a mutex excludes, a wait
  releases the mutex atomically and may wake spuriously. C17-C21 take atomics as sequentially consistent;
  C68 proves that this is right, from the memory model as written down in `WeakPool.lean`: happens-before as vector
  clocks (thread creation and join, mutexes, acquire loads of release sequences), each atomic with its modification
  order. It allows every execution that C++20 does, except that a load only reads stores executed before it (no load
  buffering, which no implementation does with the dependencies in this code).
* The meaning of the vector instructions used by fixedpoint_{sse,avx,neon,wasmsimd,msa}.h:
  namespace `Isa` of `Simd.lean`, one short definition per instruction.
* The meaning of the instructions used by the SSE4 and AVX2 assembly kernels: `Asm.step` of
  `X86.lean`, one case per instruction, and the store sequence `Asm.finish` of `AsmStore.lean`.
* The meaning of the NEON and MSA instructions used by the assembly kernels: one short definition per
  instruction in `Neon64.lean`, `Neon32.lean`, `Neon12.lean`, `Msa.lean`, over the machine of `Vec128.lean`.
  The instruction lists were written by a script that reads /repo's text.
* The meaning of the SSE, AVX, NEON and MSA intrinsics used by the packing headers: one short definition per
  intrinsic in `PackSimd.lean`.
* The meaning of the SSE, NEON and MSA intrinsics used by the register-block wrappers, the output stages and
  their stores: one short definition per intrinsic in `OutSimd.lean` and `OutStore.lean`.
* The meaning of the 64-bit ARM instructions used by the generated code of meta/: one short case per instruction in
  `MetaAsm.lean`, over registers of 16 bytes, scalar registers that hold integers, and two byte memories (the operands,
  read only, and scratch). The instruction lists (`MetaStreamsRow.lean`, `MetaStreamsCol.lean`, `MetaKernels.lean`) were written by a
  script that reads /repo's text. The floating-point instructions are parameters; C67 instantiates them with IEEE 754
  binary32 arithmetic on rationals (`Float32.lean`: round to nearest even, every NaN result is the default NaN; 32-bit
  ARM flushes subnormal operands and results, 64-bit ARM is taken in its default mode). For the transforms
  (`MetaTransforms.lean`, `MetaBiasAdd.lean`) there is one memory; a straight-line part loads before it stores (checked), so it
  reads memory as the parts before have left it.
* The GEMM theorems are stated for any packing of register blocks with the effect `BlockEffect` and for any kernel that meets an explicit contract (`KernelOk`),
  which may demand something of the operands (`KernelNeeds`: which pairs of neighbouring products
  occur, zero padding of packed runs, a depth that fits `int`).
  The C++ reference kernel and the SSE4, AVX2, NEON and MSA assembly kernels are modelled and proved to meet it.

## 2. How the model is built

* **Faults are outcomes.** Functions that may misbehave return `Except Fault`.
  `Fault` has cases for out-of-bounds access, signed overflow, failed
  assertion, `abort()`, division by zero, bad shift and a loop that would not
  terminate. "No undefined behaviour" is the statement that the result is `.ok`.
* **Memory.** Input matrices are partial functions from addresses to bytes. Only the
  addresses of matrix entries need to be defined, so a read of a stride gap or
  of a neighbouring byte is a fault. Scratch buffers have a size and arbitrary
  initial contents. Stores to the result are an emitted list of
  (address, value) pairs, so "exactly once" and "nowhere else" can be said.
* **int32 arithmetic.** `BitVec 32` with a mode: `trap` (signed overflow is a
  fault, the C++ rule for scalar code) or `wrap` (two's complement, SIMD code).
  Theorems in `wrap` mode hold for all data. Theorems in `trap` mode carry the
  range hypotheses that rule overflow out.
* **Indices** (`int` in the code) are natural numbers in the GEMM model. The `int` arithmetic on
  sizes, counters and addresses is followed separately in `IntSizes.lean`; C72 says for which sizes it
  does not overflow and agrees with the natural numbers.
  Functions whose integer overflow matters (thread counts, allocator sizes, partitioning) are
  modelled with explicit range hypotheses or modular arithmetic.
* **Loops** are a `for` combinator over `Except Fault` with an invariant rule.
* **Concurrency.** The thread pool is a transition system over all
  interleavings with program counters for master and workers, the mutex, the condition
  variable (with spurious wakeups) and the atomic counter.
* **Floating point.** The L2 factor cast is a parameter, an arbitrary integer. The example code is
  modelled twice: over exact rationals (C43, C56) and in IEEE arithmetic on bit patterns (C71).
  The legacy float code under meta/ (C67) and the fixed-point constructors (C69, C70) use the same
  IEEE model: rounding to nearest, ties to even, no excess precision, no contraction to fused operations.

## 3. What is modelled and how each property is proved

| Id | Model | Proof | 
|----|-------|-------|
| C01 | map, pack, kernel_reference, compute, unpack, single_thread_gemm, block_params | refinement of the loop nest to the sum formula, loop invariants, `wrap` mode |
| C02 | same; stores as trace | trace is a permutation of the canonical list of entries |
| C03 | same; faults | the run is `.ok` |
| C04 | same in `trap` mode | range invariants on every intermediate sum |
| C05 | same | corollary of C01: right side does not mention tuning |
| C06 | multi_thread_gemm tasks + pool | every interleaving of the tasks' stores is a permutation of the canonical list |
| C07 | row split of MultiThreadGemm | arithmetic, induction on task number |
| C08 | dispatch_gemm_shape incl. transposed stages | equality of specification under transposition |
| C09 | DispatchGemmShape early return | zero rows/cols proved; depth 0 is refuted (finding F6), `_partial` |
| C10 | map.h | arithmetic |
| C11 | as C01 | corollary: two memories agreeing on entries give the same trace |
| C12 | kernel.h OffsetIntoCell | arithmetic, injectivity and range |
| C13 | block_params.h | arithmetic |
| C14-C16 | allocator.h as a state machine, wrapping sizes of 32 or 64 bits | invariant over operation sequences |
| C17-C21 | Worker, WorkersPool, BlockingCounter as a transition system | inductive invariant, progress, decreasing measure |
| C22 | HowManyThreads | arithmetic with range hypotheses |
| C23-C28 | output.h, output_stages.h, scalar stages on `BitVec 32`, final values as integers | integer characterisation, pipeline composition |
| C29-C35, C39 | fixedpoint.h scalar; fixedpoint_{sse,avx,neon,wasmsimd,msa}.h as operation dictionaries over registers; exp, logistic, tanh over those (`SimdTrans.lean`) | integer characterisation through `toInt`, equivalence per lane |
| C36-C38 | exp/logistic/tanh code on raw values (int32 and int16) | refinement to closed integer functions, interval propagation, symmetry; the least input refuted (F5), `_partial` |
| C50-C52 | the same functions | error analysis against Mathlib's real `exp` and `tanh`: Taylor bound, rounding error of each multiplication, Newton residual; for int16 the Newton division is checked on all 16384 denominators in the kernel |
| C40-C41, C55 | eight_bit_int_gemm.cc: both entry points, scratch memory, global state as a state machine over histories, conditions of the fast path | reduction to C01/C02 with the kernel chosen by C42, induction over histories; refuted where the code differs (F7, F12, F22, F23) |
| C42 | kernel_default.h: the template parameters, explicit specialisations per architecture, C++ resolution rules; joined to the modelled kernels | case analysis and arithmetic; refuted for ranges that start at 0 (F8), `_partial` |
| C43 | QuantizeMultiplierSmallerThanOne over exact rationals | induction over the loop, rounding arithmetic; refuted within 2^-32 of 1 (F24), `_partial` |
| C44-C46 | meta/single_thread_gemm.h: Dispatch3D stages, CalculateCacheFriendlyTasksCount; meta/single_thread_transform.h; meta/multi_thread_gemm.h, multi_thread_transform.h, legacy_multi_thread_common.h: task partition | arithmetic, induction; `_partial` for C45 (F29) and C46 (F9) |
| C47 | meta/legacy_multi_thread_gemm.h: CacheFriendlyMatrixMatrix | arithmetic |
| C58 | meta/streams.h (sizes), the executors and all drivers of meta/, given a contract of the generated code (`MetaOps.Meets`) | invariants of the loops, refinement to the set of entries; sizes of scratch memory |
| C62 | meta/streams_arm_64.h and meta/streams_arm_32.h (all 128 packing routines with sums of each), meta/quantized_mul_kernels_arm_64.h and meta/quantized_mul_kernels_arm_32.h (all 45 kernels of each; `Env.arch` says which processor; `[p:64]` and the like record an alignment that is checked at the end, `misaligned`): the inline assembly as lists of instructions; operands and clobbers as in the source | symbolic execution of each loop body checked by the kernel, induction over the loop counter, refinement to `MetaOps.Meets`, then C58 |
| C63 | eight_bit_int_gemm.cc with `GEMMLOWP_USE_META_FASTPATH`: MetaGemmQuantized8Bit, MetaGemmFloat and the choice of the path, 64-bit and 32-bit ARM; one memory for both operands | C62, C55 and C40 joined; `_partial` (F23, F28, F29, F31, F36) |
| C64 | meta/transform_kernels_arm_64.h (all 80 routines), transform_kernels.h, single_thread_transform.h, multi_thread_transform.h; memory in which input and output may overlap | blocks run symbolically, lane by lane (`MetaLane`, `MetaTransformCheck`), then an invariant over the passes of the loop and the rows; the stores as a set, so that the order of the threads does not matter |
| C65 | meta/transform_kernels_arm_32.h (all 80 routines). `Ins32` (`MetaAsm32`) is the 32-bit instruction set over d and q registers; its meaning is a sequence of the instructions of `MetaAsm` on the q registers, with the halves of a register taken apart and joined (`lo`, `hi`, `join`) | the checks and the loops of C64, over another table of routines; `C65_requantize_fails` for F38 |
| C66 | the aligned accesses of meta/streams_arm_32.h | a check of all 128 routines by the kernel: the destination register moves by multiples of gcd(32, 8n), and an access that asks for that much is always executed; C62 for the converse |
| C67 | the floating-point instructions of the code of C62, C64 and C65 | `Float32.lean` has the unit; `Float32Proof.lean` that it rounds correctly; `Float32Acc.lean` a bound that composes (size, roundings, underflow); `Float32Order.lean` monotonicity of each instruction; then C62, C64, C65 |
| C68 | the pool of C17-C21 with the memory orders of its atomics, every access to ordinary memory and the client's accesses between calls | `WeakPool.lean` has the memory; `WeakInv.lean` the invariant (who knows about which access and which message); one lemma per kind of move (`WeakWorker*.lean`, `WeakMaster*.lean`); simulation by the pool of C17-C21 |
| C69 | the tanh stage with its constructor; doubles are rationals, each operation rounds to 53 bits | what the two loops of the constructor compute (`TanhInit.lean`), the stage as an integer function, error analysis against Mathlib's `Real.tanh` on top of C52 |
| C70 | `FromDouble`, `ToDouble`, and the fixed-point functions in the build that checks the constants (`FixedDouble.lean`), `std::exp` a parameter | doubles survive scaling by powers of two exactly; case analysis of the rounding; certified bounds on `Real.exp` at the eight points |
| C71 | doc/quantization_example.cc in binary32 and binary64 (`FloatExample.lean`): FindMinMax, ChooseQuantizationParams, Quantize, Dequantize, the reference product, the multiplier | error bounds of the single operations composed; order by places of bit patterns; exactness of products with powers of two; refuted for extreme ranges (F44) |
| C72 | the `int` arithmetic on sizes, counters, positions and addresses of block_params.h, map.h, pack.h, compute.h, unpack.h and the two drivers, every operation checked (`IntSizes.lean`) | invariants of loops with a checked counter; equality with the natural-number model; exact limit on x86 (F45) |
| C73 | pthread_everywhere.h on a model of std::thread, std::mutex, std::condition_variable, std::unique_lock (`PthreadShim.lean`) | simulation of a specification of the POSIX functions (`PthreadSpec.lean`), with stuttering at the end of a wait; ownership of heap objects; leak of threads (F46) |
| C74 | the pthread calls of each move of the pool of C17-C21 (`PthreadPool.lean`), on the specification and on the Windows functions of C73 | the pool's state determines the state of the pthread functions (`view`); each move is its calls (simulation in both directions) |
| C75 | the allocator calls of SingleThreadGemm, MultiThreadGemm and their tasks on the allocators of a context (`GemmAlloc.lean`), any interleaving | histories of the context project to histories of each allocator that follow its protocol; then C14-C16; sizes against those of the GEMM model; 32-bit limit (F47) |
| C76 | standalone/neon-gemm-kernel-benchmark.cc: thirteen of its ARM assembly kernels and an MSA kernel (`BenchProgA/B/C/D/F/G.lean`) and six with intrinsics (`BenchProgE/H.lean`), all as lists of instructions (`Bench.lean`; prefetches left out; for MSA and intrinsics each operation in source order), `ReferenceKernel`, `CacheLineAlignedBuffer` | symbolic execution of each part once, with ranges (`BenchSym.lean`, proved sound); a checker for the loop invariants, proved sound for all depths (`BenchKern.lean`, `BenchProof.lean`) and run by the kernel of Lean; the reference by loop invariants (`BenchRef.lean`); reads after the buffers: a non-interference theorem for memory (`BenchMem.lean`) and the fault at the last pass (`BenchOver.lean`); 16-bit accumulators whose range grows from pass to pass (`BenchGrow.lean`) |
| C77 | standalone/neon-gemm-kernel-benchmark.cc: the sixteen kernels for int32 and float operands (`BenchWProgA/B.lean`) as lists of instructions on words of any type with any multiply-add (`BenchW.lean`; prefetches left out; the version with intrinsics in source order), `ReferenceKernel` on words | symbolic execution with ordered multiply-adds and a checker, proved sound for all depths (`BenchWSym.lean`), run by the kernel of Lean; the reference by loop invariants, and by monotonicity where its operation is partial (`BenchWRef.lean`) |
| C78 | standalone/neon-gemm-kernel-benchmark.cc: `RoundDown`, `BenchmarkDepthToFitInCache` (`BenchDepth.lean`; `getenv` and `atoi` are an argument) | integer arithmetic; the effect of depth 0 with the machine of C77 |
| C79 | standalone/cache_counters.cc: `Workload`, `main` (`CacheCount.lean`; `XorshiftTable.lean` is a table for the proof) | induction over the loop; period of the generator by checked powers of its matrix |
| C80 | standalone/cache_counters.cc: `Hypothesis1` to `Hypothesis5`, `PieChart`, `Study` (`CacheCount.lean`; the counters are arguments, their conversion from 64 bits to `int` and printing are not modelled) | integer arithmetic; a list of the levels where accesses find their data as the specification |
| C81 | meta/generators/neon_emitter.py: `_NeonRegisters32Bit`; neon_emitter_64.py: `_NeonRegisters64Bit` (`RegAlloc.lean`; without the parameters and names) | invariant over sequences of requests and returns |
| C82 | test/test.h: `Matrix::operator=`, `operator==`, `Resize`, `size` (`TestMatrix.lean`; assignment to itself is left out) | induction over the elements |
| C83 | test/benchmark_all_sizes.cc: `operator<` of `Shape`, `run_benchmarks` given the measurements (`BenchAll.lean`; `std::map` is a list of entries) | invariant over the measurements, against the least latencies and the lexicographic order |
| C84 | test/test.h: both versions of `MakeRandom` (`TestRandom.lean`; the results of `Random` and of the distribution are given) | invariant over the two loops |
| C48 | profiling/profiler.h: ProfileTreeView (tree, "other" nodes, sorting), RecordStack; profiling/instrumentation.h: ProfilingStack, ScopedProfilingLabel | induction over stacks and samples, refinement to the list of enclosing labels; `_partial` for Update (F27) |
| C49 | encode.py: both encoders and the loop over the lines (lines are given by their `.word`s and instruction, the regular expressions are not modelled) | bit-field arithmetic against a decoder written from the architecture manual; induction over the lines |
| C56 | the rest of doc/quantization_example.cc, in exact arithmetic: FindMinMax, ChooseQuantizationParams, Quantize, Dequantize, the call of main | rounding arithmetic over rationals, joined to C01 and C24 |
| C57 | the set of threads under profiling, thread exit callbacks, StartProfiling/FinishProfiling | invariant over histories; `_partial` (F26) |
| C53 | kernel_sse.h, kernel_avx.h: the inline assembly as a list of instructions over registers of 16-bit pieces | symbolic execution of the loop bodies, induction over the loop counter, refinement to the sum of the contract |
| C59 | pack_sse.h, pack_avx.h, pack_neon.h, pack_msa.h: the intrinsics as functions on registers | the effect of a block stated without reference to code (`BlockEffect`), each packer refined to it; the side and the entry points are proved for any packer with that effect |
| C60 | simd_wrappers_{sse,neon,msa}.h, simd_wrappers_common_neon_sse.h, output_{sse,neon,msa}.h: blocks as lists of registers of four lanes, casts, stores as a table of lanes and places | lane-by-lane refinement to the scalar stages, whole finite table of stores checked by the kernel; `_partial` (F32, F33) |
| C61 | the int8 side formats, pack_neon.h:320-380, the int8 kernels; `InputScalar` says which of the two types the bytes of a matrix are, and C01-C11 hold for both | reduction to C01 with the kernel chosen by C42; the same sums as a uint8 GEMM with shifted offsets |
| C54 | kernel_neon.h, kernel_msa.h: the inline assembly as lists of instructions over registers of 16 bytes | the same; 16-bit partial sums are exact under the operand restriction |

## 4. Findings (code contradicts its documentation or the property)

Each is a theorem with a concrete witness, named `..._fails` or similar.

* F1: SSE/AVX `SaturatingRoundingDoublingHighMul` returns INT_MIN on INT_MIN*INT_MIN; scalar/NEON/WASM return INT_MAX (`C34_srdhm_sse_min_fails`).
* F2: scalar `RoundingHalfSum` rounds ties away from zero; SIMD versions round ties up (`C32_scalar_simd_fails`).
* F3: output_stages.h documents `(x + rounding) >> shift` (ties up); the code rounds ties away from zero.
* F4: scalar `ShiftLeft` evaluates `1 << 31` in int for offset 31; SIMD versions do not saturate (`C39_shiftLeft_31_fails`, `C34_shiftLeft_fails`).
* F5: `tanh` and `logistic` negate their argument unconditionally: signed overflow at INT_MIN (`C37_logistic_undefined`, `C38_tanh_undefined`).
* F6: a GEMM of depth 0 leaves the result unwritten.
* F7: FreePersistentResources discards the maximum thread count (`C41_free_resets`, `C41_set_stays_fails`).
* F8: the "LHS nonzero" kernel is selected for unsigned ranges with max <= 127 that include 0; 0 is re-centred to -128 and two products can overflow int16. Happens exactly if both declared ranges start at 0 (`C42_two_products_fail`, `C42_two_products_fail_witness`, `C42_unsigned_7bit_wrong`).
* F9: the meta cache-friendly executor can give its last task more chunks than fit in the declared cache size, which is also the announced scratch size (`C46_last_piece_fails`).
* F10: RoundUpToPowerOfTwo is not a power of two above 2^32 (still an upper bound).
* F11: int16 `RoundingDivideByPOT` is wrong for exponents above 15, which its assertion admits.
* F12: several size products overflow `int` for large shapes (HowManyThreads, row split, meta task counts); the scratch memory of `EightBitIntGemm` with a `float` result wraps to a negative size (`C40_float_scratch_fails`).
* F13: AVX `Any` is true for every argument (`C33_any_avx_fails`).
* F14: SSE and AVX `All` is true for every argument, so equality of SIMD FixedPoint values is always true (`C33_all_sse_avx_fails`, `C33_equality_sse_avx_fails`).
* F15: the broadcast operators swap the operands of non-commutative operations when the right block is the larger one (latent: not used so).
* F17: the size computation of `Allocator::Reserve` wraps silently; a huge block takes no room (`C14_wrap_fails`).
* F16: `one_minus_x_over_one_plus_x_for_x_in_0_1` returns -8 at 2^31 - 1 (`C38_helper_negative`); `tanh` never passes such an argument.
* F18: with few integer bits the int16 functions are on the wrong side near zero: `logistic` of the smallest positive number is below one half for 0 to 2 integer bits (`C37_logistic16_side_fails`), `tanh` of it is -8, -4, 0 units for 0, 1, 2 integer bits (`C38_tanh16_sign_fails`). Within the error bounds of C51, C52.
* F19: the AVX2 kernel reads 8 bytes beyond the packed right-hand side (`C53_avx2_reads_beyond`, `C53_avx2_fails`). In the library another block of the same allocation follows, so no fault is seen.
* F20: for an odd number of cells, three or more, the SSE4 and AVX2 kernels multiply one cell too many (`C53_sse64_extra_cell`, `C53_sse64_needs_padding`). Right only because packed runs are padded with zeros to the register size.
* F21: for ranges with products below 4096 and a left-hand side that excludes 0 or stays below 128, two partial specialisations of `DefaultKernelImpl` match and nothing compiles (`C42_ambiguous_iff`, `C42_ambiguous_witness`); e.g. 4-bit operands, for which the 12-bit kernel was made.
* F22: eight_bit_int_gemm.h documents 0 as the default maximum of threads; it is 1 (`C41_default_is_one`).
* F24: `QuantizeMultiplierSmallerThanOne` fails its assertion `s >= 0` for real multipliers within 2^-32 of 1, where the renormalization needs the shift -1 (`C43_multiplier_fails`; no float lies there); for multipliers below 2^-33 the shift exceeds the 31 that the output stages accept (`C43_shift_fails`).
* F25: `ChooseQuantizationParams` divides 0 by 0 for a matrix of zeros and converts the NaN to uint8 (`C56_zero_range_fails`).
* F26: a `ThreadInfo` has two thread-specific keys whose destructors free it and unregister it; POSIX leaves their order open (glibc runs the freeing one first), so the profiler thread can read a freed stack (`C57_exit_order_fails`).
* F27: `ScopedProfilingLabel::Update` on a label that is not the innermost one replaces the label of the innermost block (`C48_update_fails`).
* F28: the legacy meta drivers reserve 1 MB of scratch memory per thread; for depths 8 to 11 and some widths a chunk takes more (`C58_scratch_fails`, `C58_scratch_fails_depth8`).
* F29: the meta drivers compute m*n*k in `int` to choose the number of tasks: overflow from 1291 x 1291 x 1291 on (`C45_tasks_overflow`); likewise n*k (`C47_overflow`).
* F31: the meta fast path evaluates `1 << (shift - 1)` also for shift 0, which `EightBitIntGemm` accepts (`C58_shift_zero_fails`).
* F32: for a positive exponent the scalar `ShiftLeft` saturates and the vector one wraps; blocks of one entry are scalars in every build, so the same accumulator gives different results at different places of one matrix (`C60_left_shift_differs`; likewise the square of INT_MIN under SSE, `C60_sse_square_differs`).
* F33: the tanh stage in vector registers returns about minus the amplitude for the largest input below the cutoff if the amplitude is a power of two (`C60_tanh_differs`).
* Some pipelines do not compile in some builds (`Pipeline.Supports`): a bias vector that repeats one value in any vector build, the per-channel exponent stage outside NEON, the cast to int8 under SSE and MSA, the truncating cast under SSE and NEON. internal/output_avx.h is included by nothing: AVX2 builds use the scalar output code.
* F34: every kernel of meta/quantized_mul_kernels_arm_64.h (and of meta/quantized_mul_kernels_arm_32.h) decrements `count`, which it declares an input-only operand (`[count] "r"`), and uses `int` operands as 64-bit registers; both break the rules for inline assembly. The model takes the code at its word (textual observation, no theorem).
* F35: the packing code of meta/ sums bytes in 16-bit counters; from depth 2064 on they can wrap, and nothing limits the depth (`C62_depth_fails`). `EightBitIntGemm` does: its fast path stops at 2048.
* F36: the fast path of `EightBitIntGemm` adds the rounding constant 2^(shift-1) to the product modulo 2^32; the standard path divides with rounding and does not overflow. Where (sum + offset) * mult is within that constant of 2^31 the fast path stores 0 and the standard path the rounded value (`C63_rounding_fails`).
* F37: `Transform1DKernel<int32_t, uint8_t, Requantize, 16, 7>` (meta/transform_kernels_arm_64.h:850) writes v9 and does not say so in its list of clobbered registers; the other 79 routines do (textual observation, no theorem). `BiasAdd` also counts down `rows`, an input-only operand, as in F34.
* F38: `Requantize` on 32-bit ARM (meta/transform_kernels_arm_32.h) does not add `output_range_offset` and rounds to zero (`vcvt.s32.f32`); on 64-bit ARM it adds it and rounds to nearest (`fcvtns`). So the same element gives different bytes (`C65_requantize_fails`). The test expects the offset and rounding to zero, with a tolerance.
* F39: the routines of transform_kernels_arm_64.h for counts that are a multiple of 16 do one pass before they look at the count; for count 0 they go on until the counter wraps (`C64_no_elements`; `C65_no_elements` for 32-bit ARM). `BiasAdd` does the same for no rows.
* F40: the packing code for 32-bit ARM uses aligned accesses: the destination must be a multiple of 8, 16 or 32 bytes, depending on the number of lanes (`C66_packing`). Nothing says so; meta/test_gemm_correctness.cc:355 and meta/test_streams_correctness.cc:169 pass memory from `new std::uint8_t[]`, which 32-bit systems align to 8 bytes. There every product of the 2 x 4 kernel with four or more columns faults (`C66_gemm_packRHS_faults`, `C66_cache_friendly_faults`). `EightBitIntGemm` aligns its memory to 32.
* F41: `Quantize` rounds to zero, so it does not undo `Dequantize`: with the parameters of meta/test_transform_correctness.cc (-100 to 100) 42 of the 256 bytes come back one smaller (`C67_round_trip_fails`); never more (`C67_round_trip_run`).
* F42: meta/test_transform_correctness.cc:75-96 expects `Requantize` to round to zero, exactly. The 64-bit code rounds to nearest: for the test's first element, -2000000000, the number is 8.757, it stores 9, the test expects 8 (`C67_requantize_test_fails`). So the repository's test fails on 64-bit ARM.
* F43: the tanh stage evaluates `tanh` before it looks at the cutoffs. For an accumulator at or below the lower cutoff, and for some just above, the scalar `ShiftLeft` saturates to INT_MIN, which `tanh` negates: signed overflow (F5) although the result does not depend on it (`C69_undefined`, `C69_undefined_inside`). For a negative amplitude the constructor does not end (`C69_negative_amplitude`). F33 also happens for amplitudes that are not powers of two (`C69_vector_fails`).
* F44: `ChooseQuantizationParams` has no usable result for ranges that are very narrow or very wide. If the width over 255 rounds to 0 then the zero point is the conversion of a NaN, or the scale is 0 and every negative number comes back as 0; if the width overflows then the scale is infinite and every number comes back as NaN (`C71_range_fails`). If the first entry of a matrix is NaN then both bounds are NaN and the conversion is undefined (`C71_first_nan`); a NaN anywhere else is passed over by `FindMinMax` and quantized to 255.
* F45: The number of bytes of the packed LHS is an `int` product of rounded sizes. On x86 the LHS is not blocked, so that a LHS of 65536x32768 entries overflows although all its entries can be addressed (`C72_refuted_packed_size`), and so does a scalar product of 178956961 entries, whose one row is packed as twelve (`C72_refuted_scalar_product`). With a factor other than one a scalar product of 2^28 entries overflows in `FindL2BlockSizes` with a kernel of eight columns (`C72_refuted_block_params`). Nothing checks these sizes.
* F46: In the Windows version `pthread_create` allocates a `std::thread` that `pthread_join` joins and does not delete, and no other function does: every worker of every pool leaves one behind (`C73_threads_leak`, `C73_worker_leaks`).
* F47: With a 32-bit `size_t` a GEMM whose buffers need more than `2^31` bytes, for example 32768x1 times 1x16384 on 32-bit x86, commits a storage of zero bytes and writes behind it: `RoundUpToPowerOfTwo` wraps to 0, which the check for a failed allocation accepts (`C75_refuted_32`, `C75_exact_32`).
* F48: In the kernel benchmark the `AccumTwoWithin16Bits` kernels (two in ARM assembly, two with intrinsics, one for MSA) have the operand ranges of `int8_t`, but with -128 on both sides two products overflow 16 bits and the result is wrong; unlike for the library kernel, no operand range excludes it (`C76_refuted_accum_two`). The comment on the MSA kernel (5300-5305) names the assumption, but nothing enforces it.
* F49: Two kernels of the kernel benchmark read after the end of the buffers, which have 16 bytes of padding, at every depth: `Int7Operands_AccumEightWithin16Bits` 64 (LHS) and 32 (RHS) bytes, `dotproduct_A55r1` 32 bytes of the LHS (`C76_refuted_accum_eight`, `C76_refuted_dotproduct_A55`).
* F50: The assembly kernel `NEON_64bit_GEMM_Int425Operands` of the kernel benchmark (3117-3370) uses two cells in each pass of its inner loop but counts one, and never takes the branch to its outer loop (3327), since the zero flag is set at both exits of the inner one. So it does min(16, depth / 32) passes: at every depth up to 1024 it reads outside the buffers (`C76_refuted_int425`), at every depth from 1088 on it leaves out the last cells (`C76_refuted_int425_deep`).
* F51: `NEON_64bit_GEMM_Float32_WithScalar_A55r1` of the kernel benchmark (4375-4537) loads two cells of the LHS after the end in its last pass, 32 bytes, and the buffers have 16 bytes of padding; the comment on the padding (5654) has only the kernel for A57 in mind. It happens at every depth (`C77_refuted_float_A55r1`).
* F52: `BenchmarkDepthToFitInCache` (5805-5842) returns 0 or a negative depth if not even 64 levels fit into `CACHE_SIZE_KB` (e.g. 4 KB for the 12x8 float kernels), and nothing looks at the result. At depth 0 the kernels in assembly go through their loops about 2^32 times, on empty buffers (`C78_refuted_small`, `C78_refuted_zero`). Sizes from 2 GB on overflow (`C78_refuted_big`).
* F53: In cache_counters.cc, the correction in `Hypothesis3` (292-303) leaves out `l3d_cache_refill`, so a share can be negative (`C80_refuted_hypothesis3`); `Hypothesis1` (269-279) has negative shares if more than half of the accesses miss all caches (`C80_refuted_hypothesis1`), and with ideal counters it is right only if nothing misses (`C80_refuted_ideal`); counts from about 2^30 on overflow (`C80_refuted_overflow`). `main` frees with `delete[]` (403) what `posix_memalign` allocated (394), which is undefined (read, not modelled).
* F54: `GeneralRegister` of neon_emitter.py (128-134) counts up to 15, so it can give out r13 (stack pointer) and r15 (program counter) (`C81_refuted_sp`); the 64-bit class stops before x30. `FreeRegister` (149-168) accepts half of a quad register that is held (`C81_refuted_half`). The error class raised at the end of `FreeRegister` is not defined, but that place cannot be reached.
* F55: `operator==` of the test class `Matrix` (test.h:72-75, and benchmark_all_sizes.cc:78-81) passes the number of elements to `memcmp`, not of bytes, so for `int32_t` it looks at a quarter of the data (`C82_refuted_equal`, `C82_refuted_int32`). The tests compare element by element and do not use it.
* F56: with MSVC `MakeRandom` (test.h:107-116) takes remainders by `kMaxValue` and ignores `kMinValue`, so the left matrices of the tests with `L8R8WithLhsNonzeroBitDepthParams` (test.cc:1677, 1691) can have zeros, which those kernels exclude (`C84_refuted_range`), and the greatest value and negative values never occur (`C84_refuted_reach`).
* F23: `CanHandleMetaFastpath` takes every one-row (one-column) matrix for contiguous, whatever its leading dimension; the fast path then reads and writes wrong places (`C55_fast_path_fails`).
* The x86 kernels' assembly changes `run_depth_cells`, some NEON kernels' `dst_col_stride`, which are declared input operands only.

## 5. Not modelled

prefetch hints; profiling sampling thread timing;
Windows ports other than pthread_everywhere.h; test code other than the class `Matrix` and `MakeRandom`; the generators of the meta kernels other than their registers; benchmarks other than the parts named at C76 to C83; what a multiply-add of floats computes; Bazel/CMake files; the JNI wrapper.

Simplifications of the modelled parts: the input matrices and the result are in
separate memories (no aliasing); block parameters and map addresses use natural
numbers (C72 justifies this up to the limits stated there); a
waiting thread of the pool may give up busy-waiting at any moment; doubles are rationals that are rounded to 53 bits
after each operation (no overflow, no subnormal numbers; the modelled code does not come near them).
