{"id": "C01", "title": "GEMM computes the quantized matrix product", "statement": "After a single-threaded GemmWithOutputPipeline/GemmWithOutputPipelinePC returns, every entry (r,c) of the result equals the output pipeline applied at (r,c) to the 32-bit accumulator sum over k of (lhs(r,k)+lhs_offset(r))*(rhs(k,c)+rhs_offset(c)), taken modulo 2^32.", "quantifier": "all shapes with rows,cols,depth >= 1, all storage orders and strides of the three matrices, all 8-bit matrix contents, all int32 scalar or per-row/per-column offsets, all kernel tile formats, all L1/L2 budgets and L2 factors, all prior contents of scratch memory, all output pipelines", "why_tests_cant": "the space of shapes x strides x tile formats x cache budgets x data is unbounded; tests only sample it and tile-boundary bugs hide between samples", "anchors": ["internal/single_thread_gemm.h:SingleThreadGemm", "internal/pack.h:PackSideBlockImpl", "internal/compute.h:ComputeImpl", "internal/unpack.h:UnpackResult", "public/gemmlowp.h:GemmWithOutputPipelinePC"]}
{"id": "C02", "title": "GEMM writes exactly the result rectangle, once", "statement": "A GEMM call stores to each of the rows*cols entries of the result exactly once and stores to no other address: the gap between consecutive rows/columns of a strided result and everything outside the result is left as it was.", "quantifier": "all calls as in C01, all result strides >= the contiguous dimension", "why_tests_cant": "a stray or repeated store can be masked by later stores or land in memory the test does not inspect", "anchors": ["internal/unpack.h:UnpackResult", "internal/output.h:StoreFinalOutput", "public/map.h:MatrixMap"]}
{"id": "C03", "title": "GEMM never reads or writes out of bounds and never fails an internal check", "statement": "On a well-formed call every read of lhs, rhs, offset vectors, scratch and packed-result memory and every scratch write is inside the buffer it addresses, every block() request is inside the map it is taken from, and no internal assertion fails.", "quantifier": "all calls as in C01", "why_tests_cant": "an out-of-bounds access depends on the exact combination of shape, tile format and cache budget and usually goes unnoticed", "anchors": ["internal/pack.h:PackedSideBlock::seek_run", "internal/pack.h:PackingRegisterBlockBase", "internal/kernel_reference.h:ReferenceKernel::Run", "internal/compute.h:ComputeImpl::ComputeRun", "internal/unpack.h:UnpackResultBlock"]}
{"id": "C04", "title": "No signed overflow in the accumulation for uint8 data with zero points in range", "statement": "With uint8 operands and offsets in [-255,0] (the negated zero points of the documented quantization scheme), a GEMM of depth at most 33024 performs no signed 32-bit overflow anywhere in packing, kernel accumulation or offset correction, so that the computed accumulator is the exact integer sum.", "quantifier": "all matrix contents, all offsets in range, all depths up to the bound, all shapes, tile formats and cache budgets", "why_tests_cant": "overflow is undefined behaviour that depends on extremal data at extremal depth in intermediate terms that never appear in the output", "anchors": ["internal/unpack.h:UnpackResultBlock", "internal/kernel_reference.h:ReferenceKernel::Run", "internal/pack.h:PackingRegisterBlockBase::Pack"]}
{"id": "C05", "title": "Tuning parameters do not change results", "statement": "Two GEMM calls on the same inputs that differ only in L1/L2 cache budgets, the L2 RHS factor, the kernel tile format, or the stale contents of scratch memory left by earlier calls produce bit-identical results.", "quantifier": "all pairs of tuning settings and all histories of the scratch memory, all inputs as in C01", "why_tests_cant": "the setting space is unbounded and differences would show only on particular shapes", "anchors": ["internal/block_params.h:BlockParams::Init", "internal/single_thread_gemm.h:SingleThreadGemm", "internal/allocator.h:Allocator"]}
{"id": "C06", "title": "Multi-threaded GEMM equals single-threaded GEMM under every schedule", "statement": "With any number of threads, whatever the interleaving of the worker threads' stores, a multi-threaded GEMM leaves in the result exactly the values a single-threaded GEMM leaves, and touches nothing else.", "quantifier": "all inputs as in C01, all thread counts >= 2, all interleavings of the tasks", "why_tests_cant": "schedules cannot be enumerated by running tests", "anchors": ["internal/multi_thread_gemm.h:MultiThreadGemm", "internal/multi_thread_gemm.h:GemmWithPackedRhsTask::Run"]}
{"id": "C07", "title": "Multi-threaded row split covers every row exactly once", "statement": "The row ranges handed to the tasks of a multi-threaded GEMM are consecutive, disjoint, within the matrix, and together cover every row; every boundary other than the last is a multiple of the kernel's row tile.", "quantifier": "all row counts, task counts and kernel row tiles with rows*tasks within int range", "why_tests_cant": "off-by-one gaps appear only for particular rows/tasks/tile residues", "anchors": ["internal/multi_thread_gemm.h:MultiThreadGemm"]}
{"id": "C08", "title": "Shape dispatch (transposition) is invisible", "statement": "When rows < cols the library internally computes the transposed product; the result, including per-row/per-column offsets, bias vectors and per-channel output stages, is the same as if no transposition took place.", "quantifier": "all shapes, all storage orders, all offset shapes, all output pipelines built from the provided stages", "why_tests_cant": "needs every orientation of every stage on every shape", "anchors": ["internal/dispatch_gemm_shape.h:DispatchGemmShape", "internal/dispatch_gemm_shape.h:TransposeImpl", "internal/dispatch_gemm_shape.h:TransposeTuple"]}
{"id": "C09", "title": "Degenerate sizes", "statement": "A GEMM with zero rows or zero columns returns without reading or writing anything; a GEMM with zero depth stores the pipeline image of the empty sum (0) in every result entry.", "quantifier": "all shapes with at least one zero dimension", "why_tests_cant": "the unwritten result of the zero-depth case looks correct whenever the buffer happened to hold the right value", "anchors": ["internal/dispatch_gemm_shape.h:DispatchGemmShape", "eight_bit_int_gemm/eight_bit_int_gemm.cc"]}
{"id": "C10", "title": "Matrix and vector views address what they say", "statement": "A sub-block view of a matrix map addresses entry (i,j) of the block at entry (start_row+i, start_col+j) of the parent, nested blocks compose, transposing a map swaps indices, and distinct in-range entries of a map with stride >= its contiguous dimension have distinct addresses; the same for vector views.", "quantifier": "all maps, orders, strides, block bounds and nestings", "why_tests_cant": "addressing is arithmetic on unbounded values", "anchors": ["public/map.h:MatrixMap", "public/map.h:VectorMap", "public/map.h:VectorDup", "internal/dispatch_gemm_shape.h:Transpose"]}
{"id": "C11", "title": "Only matrix entries influence the result", "statement": "The result is a function of the rows*depth entries of lhs, the depth*cols entries of rhs, the offsets and the pipeline only: bytes in stride gaps or adjacent to the matrices, alignment padding and scratch memory never influence any result entry, including when uint8 inputs are internally re-centred to int8.", "quantifier": "all pairs of memories agreeing on the matrix entries", "why_tests_cant": "leaks of adjacent memory into results only show for particular shapes and particular neighbouring data", "anchors": ["internal/pack.h:PackingRegisterBlockBase::MakeCompleteSrc", "internal/kernel.h:ZeroPointInputValue", "internal/unpack.h:UnpackResultBlock"]}
{"id": "C12", "title": "Cell layouts are bijections", "statement": "For every cell order (depth-major, width-major, diagonal) the position of coefficient (w,d) in a packed cell is in range and distinct coefficients get distinct positions, so packing loses nothing.", "quantifier": "all cell widths and depths (square for diagonal)", "why_tests_cant": "for all cell sizes", "anchors": ["internal/kernel.h:OffsetIntoCell"]}
{"id": "C13", "title": "Cache-block parameters are always usable", "statement": "For every positive shape, thread count and any cache budget or factor, the computed L1/L2 block sizes are positive, multiples of the kernel tile (rows, cols) and of the register size (depth), L1 blocks do not exceed L2 depth coverage, and no division by zero occurs.", "quantifier": "all shapes, thread counts, budgets (including negative or absurd ones) and any value of the float factor term", "why_tests_cant": "unbounded parameter space with integer division corner cases", "anchors": ["internal/block_params.h:BlockParams::FindL2BlockSizes", "internal/block_params.h:BlockParams::FindL1BlockSizes", "internal/common.h:RoundUp"]}
{"id": "C14", "title": "Allocator blocks are aligned, in bounds and disjoint", "statement": "Between Commit and Decommit, every block obtained from Reserve<T>(n) is aligned to 64 bytes, lies within the storage, holds at least n elements of T, and does not overlap any other block of the same generation.", "quantifier": "all sequences of Reserve/Commit/Decommit respecting the protocol, all sizes with a total up to 2^63 bytes", "why_tests_cant": "overlap depends on sequences of sizes", "anchors": ["internal/allocator.h:Allocator"]}
{"id": "C15", "title": "Allocator rejects protocol misuse and stale handles", "statement": "A handle is usable exactly during the committed phase of the generation in which it was reserved; using it after the next Decommit, reserving while committed, committing twice or reserving more than five blocks is detected.", "quantifier": "all operation histories", "why_tests_cant": "history-dependent", "anchors": ["internal/allocator.h:Allocator::GetPointer", "internal/allocator.h:Allocator::Reserve", "internal/allocator.h:Allocator::Commit"]}
{"id": "C16", "title": "Allocator storage is reused and always large enough", "statement": "After Commit the storage size is at least the total reserved and never smaller than before; storage is reallocated only when the reserved total exceeds it, and storage sizes are powers of two when below 2^32.", "quantifier": "all operation histories, all sizes", "why_tests_cant": "history-dependent", "anchors": ["internal/allocator.h:Allocator::Commit", "internal/common.h:RoundUpToPowerOfTwo"]}
{"id": "C17", "title": "Thread pool runs every task exactly once before returning", "statement": "Executing a list of tasks on the worker pool runs each task exactly once, and control returns to the caller only after every task has finished.", "quantifier": "all task lists, all interleavings of caller and workers, including spurious wakeups and any mix of spinning and blocking", "why_tests_cant": "schedules cannot be enumerated by tests", "anchors": ["internal/multi_thread_gemm.h:WorkersPool::Execute", "internal/multi_thread_gemm.h:Worker", "internal/multi_thread_gemm.h:BlockingCounter"]}
{"id": "C18", "title": "Thread pool never deadlocks or loses a wakeup", "statement": "In every reachable state of the pool protocol before the last call has returned some thread can take a step other than a spurious wakeup, and every fairly scheduled execution with finitely many spurious wakeups reaches the return of every call.", "quantifier": "all reachable states, all fair schedules", "why_tests_cant": "deadlocks are schedule dependent", "anchors": ["internal/multi_thread_gemm.h:WaitForVariableChange", "internal/multi_thread_gemm.h:Worker::ChangeState", "internal/multi_thread_gemm.h:Worker::ThreadFunc"]}
{"id": "C19", "title": "Thread pool is reusable and only grows on demand", "statement": "Successive Execute calls with any task counts each satisfy C17; after a call with n tasks the pool holds max(previous workers, n-1) workers, all idle.", "quantifier": "all sequences of calls", "why_tests_cant": "history- and schedule-dependent", "anchors": ["internal/multi_thread_gemm.h:WorkersPool::CreateWorkers", "internal/multi_thread_gemm.h:WorkersPool::Execute"]}
{"id": "C20", "title": "Destroying the pool stops every worker", "statement": "Destroying the pool makes every worker thread exit and joins it; no worker runs a task or touches pool state afterwards.", "quantifier": "all reachable idle pools, all schedules of shutdown", "why_tests_cant": "schedule dependent", "anchors": ["internal/multi_thread_gemm.h:WorkersPool::~WorkersPool", "internal/multi_thread_gemm.h:Worker::~Worker"]}
{"id": "C21", "title": "Blocking counter discipline", "statement": "A wait on the blocking counter returns only once the count has reached zero, exactly one of the decrements reports reaching zero, and the count is never driven below zero, when the number of decrements equals the initial count.", "quantifier": "all counts and all interleavings", "why_tests_cant": "schedule dependent", "anchors": ["internal/multi_thread_gemm.h:BlockingCounter"]}
{"id": "C22", "title": "Thread-count choice is bounded", "statement": "The number of threads used is at least 1, never exceeds the (resolved) maximum set by the user, never exceeds rows divided by the kernel row tile (rounded up), and never gives a thread less than the minimum work for its start-up cost.", "quantifier": "all shapes, tiles and thread maxima >= 0, all hardware concurrency values >= 1", "why_tests_cant": "unbounded parameter space", "anchors": ["internal/multi_thread_gemm.h:HowManyThreads", "internal/platform.h:GetHardwareConcurrency"]}
{"id": "C23", "title": "Quantize-down stage computes its documented formula", "statement": "OutputStageQuantizeDownInt32ToUint8Scale (and its per-row/per-column variant) maps x to ((x+result_offset)*result_mult_int + rounding) >> result_shift, i.e. the scaled value divided by 2^shift rounded to nearest.", "quantifier": "all int32 inputs and parameters whose intermediate sum and product fit in int32, all shifts 0..31, all positions for the per-channel variant", "why_tests_cant": "2^32 inputs times parameter space; negative ties are rare", "anchors": ["internal/output.h:OutputStageEvalBufferImpl<OutputStageQuantizeDownInt32ToUint8Scale>", "public/output_stages.h:OutputStageQuantizeDownInt32ToUint8ScalePC"]}
{"id": "C24", "title": "Fixed-point quantize-down stage approximates the real multiplication", "statement": "OutputStageQuantizeDownInt32ByFixedPoint maps x to result_offset + x*M*2^-31*2^-shift within an absolute error of at most 1 (two roundings), is monotone in x for M >= 0, maps 0 to result_offset, and its internal multiplication cannot overflow.", "quantifier": "all int32 x, all multipliers, all shifts 0..31, offsets for which the final addition fits", "why_tests_cant": "2^64 input pairs", "anchors": ["internal/output.h:OutputStageEvalBufferImpl<OutputStageQuantizeDownInt32ByFixedPoint>", "fixedpoint/fixedpoint.h:SaturatingRoundingDoublingHighMul"]}
{"id": "C25", "title": "Fixed-point-and-exponent stage handles both shift directions", "statement": "OutputStageScaleInt32ByFixedPointAndExponent with exponent e multiplies by 2^max(e,0) first, then by the fixed-point multiplier, then divides by 2^max(-e,0) rounding to nearest, then adds the offset; for e<=0 it agrees with the quantize-down-by-fixed-point stage with shift -e.", "quantifier": "all int32 inputs and multipliers, all exponents in [-31,30] for which the left shift does not overflow", "why_tests_cant": "2^64 input pairs times exponents", "anchors": ["internal/output.h:OutputStageEvalBufferImpl<OutputStageScaleInt32ByFixedPointAndExponent>"]}
{"id": "C26", "title": "Saturating casts clamp", "statement": "The saturating cast stages to uint8, int8 and int16 return the input clamped to the destination range; in particular values already in range are unchanged, and the SIMD two-step packing sequences give the same bytes.", "quantifier": "all int32 inputs, all lanes", "why_tests_cant": "2^32 inputs per lane", "anchors": ["internal/output.h:OutputStageEvalBufferImpl<OutputStageSaturatingCastToUint8>", "internal/output_sse.h"]}
{"id": "C27", "title": "Bias, clamp and truncation stages", "statement": "A bias-addition stage with a column-shaped vector adds bias(row), with a row-shaped vector adds bias(col), independently of the tile in which the entry is evaluated; the clamp stage returns max(min,min(max,x)); the truncating cast keeps the low 8 bits.", "quantifier": "all positions, vectors, values", "why_tests_cant": "orientation/tile-offset bugs show only for particular tile positions", "anchors": ["internal/output.h:OutputStageEvalImpl<OutputStageBiasAddition>", "internal/output.h:OutputStageEvalBufferImpl<OutputStageClamp>"]}
{"id": "C28", "title": "Output pipelines compose left to right", "statement": "An output pipeline (s1,...,sn) stores sn(...s1(x)) where each stage sees the global row and column of the entry; the empty pipeline stores the raw int32 accumulator; the result does not depend on the register tile shape used to traverse the block.", "quantifier": "all pipelines of any length, all positions, all tile shapes", "why_tests_cant": "pipelines are arbitrary compositions", "anchors": ["internal/output.h:OutputPipelineOutputType", "internal/output.h:OutputPipelineEvalImpl", "internal/output.h:OutputPipelineExecutor"]}
{"id": "C29", "title": "Saturating rounding doubling high multiply is exact", "statement": "SaturatingRoundingDoublingHighMul(a,b) on int32 (and int16) is the integer nearest to a*b/2^31 (2^15), ties toward plus infinity, except that INT_MIN*INT_MIN saturates to INT_MAX; it is commutative and never overflows.", "quantifier": "all pairs of int32 / int16", "why_tests_cant": "2^64 pairs", "anchors": ["fixedpoint/fixedpoint.h:SaturatingRoundingDoublingHighMul"]}
{"id": "C30", "title": "Rounding division by a power of two", "statement": "RoundingDivideByPOT(x,e) is x/2^e rounded to nearest with ties away from zero, for every exponent from 0 to the type's top bit, hence odd: RDiv(-x)= -RDiv(x).", "quantifier": "all int32 x and e in 0..31; all int16 x and e in 0..15", "why_tests_cant": "2^32 * 32 inputs", "anchors": ["fixedpoint/fixedpoint.h:RoundingDivideByPOT"]}
{"id": "C31", "title": "Saturating multiply by a power of two", "statement": "SaturatingRoundingMultiplyByPOT<E>(x) equals x*2^E clamped to the type range for E>0, x for E=0 and x*2^E rounded to nearest for E<0.", "quantifier": "all int32/int16 x, all E in range", "why_tests_cant": "2^32 inputs per exponent", "anchors": ["fixedpoint/fixedpoint.h:SaturatingRoundingMultiplyByPOT", "fixedpoint/fixedpoint.h:ImplSaturatingRoundingMultiplyByPOT"]}
{"id": "C32", "title": "Rounding half sum agrees across implementations", "statement": "RoundingHalfSum(a,b) is (a+b)/2 rounded to nearest without overflow and the scalar, SSE, AVX, NEON and WASM versions return the same value.", "quantifier": "all pairs of int32 (int16)", "why_tests_cant": "2^64 pairs", "anchors": ["fixedpoint/fixedpoint.h:RoundingHalfSum", "fixedpoint/fixedpoint_sse.h:RoundingHalfSum", "fixedpoint/fixedpoint_wasmsimd.h:RoundingHalfSum"]}
{"id": "C33", "title": "Masks, selection and reductions", "statement": "MaskIf* return all-ones when the comparison holds and zero otherwise, SelectUsingMask on such masks returns one of the two operands, All/Any on such masks report whether all/any lanes hold, and FixedPoint equality compares values.", "quantifier": "all values, all lanes, scalar and SIMD versions", "why_tests_cant": "lane combinations cannot be enumerated", "anchors": ["fixedpoint/fixedpoint.h:SelectUsingMask", "fixedpoint/fixedpoint.h:All", "fixedpoint/fixedpoint_sse.h:All", "fixedpoint/fixedpoint_avx.h:Any"]}
{"id": "C34", "title": "SIMD fixed-point primitives equal the scalar ones lane by lane", "statement": "Each SSE/AVX/NEON/WASM specialization of a fixed-point primitive returns in every lane what the scalar primitive returns on that lane.", "quantifier": "all lane values", "why_tests_cant": "2^128 register values", "anchors": ["fixedpoint/fixedpoint_sse.h", "fixedpoint/fixedpoint_avx.h", "fixedpoint/fixedpoint_neon.h", "fixedpoint/fixedpoint_wasmsimd.h"]}
{"id": "C35", "title": "Rescaling between fixed-point formats", "statement": "Rescale to fewer integer bits multiplies the raw value saturating, to more integer bits rounds to nearest: the represented value changes by at most half a unit in the last place of the destination, or saturates to the format's extreme of the same sign.", "quantifier": "all raw values, all pairs of formats", "why_tests_cant": "2^32 inputs times format pairs", "anchors": ["fixedpoint/fixedpoint.h:Rescale"]}
{"id": "C36", "title": "Exponential on negative values stays in [0,1]", "statement": "exp_on_negative_values(a) for a<=0 performs no overflow, returns a value in [0,1] (raw in [0, 2^(w-1)-1]), returns 1 at 0 and is zero far below zero.", "quantifier": "all non-positive int32 and int16 raw inputs, all integer-bit formats supported", "why_tests_cant": "2^31 inputs per format through a multi-step algorithm", "anchors": ["fixedpoint/fixedpoint.h:exp_on_negative_values", "fixedpoint/fixedpoint.h:exp_on_interval_between_negative_one_quarter_and_0_excl"]}
{"id": "C37", "title": "Logistic is bounded, symmetric and defined everywhere", "statement": "logistic(x) is defined without undefined behaviour for every input, lies in [0,1], equals 1/2 at 0, is above 1/2 for positive and below for negative arguments, and satisfies logistic(-x)=1-logistic(x) up to the representation of 1.", "quantifier": "all int32 and int16 raw inputs, all integer-bit formats", "why_tests_cant": "2^32 inputs; the only failing input is one extremal raw value", "anchors": ["fixedpoint/fixedpoint.h:logistic", "fixedpoint/fixedpoint.h:one_over_one_plus_x_for_x_in_0_1"]}
{"id": "C38", "title": "Tanh is bounded, odd and defined everywhere", "statement": "tanh(x) is defined without undefined behaviour for every input, lies in [-1,1], equals 0 at 0, has the sign of its argument, and satisfies tanh(-x)=-tanh(x).", "quantifier": "all int32 and int16 raw inputs, all integer-bit formats", "why_tests_cant": "2^32 inputs; the only failing input is one extremal raw value", "anchors": ["fixedpoint/fixedpoint.h:tanh", "fixedpoint/fixedpoint.h:one_minus_x_over_one_plus_x_for_x_in_0_1"]}
{"id": "C39", "title": "Left shift has no undefined behaviour", "statement": "ShiftLeft(a,offset) returns a*2^offset saturated to the type, with no undefined behaviour, for every offset below the width of the type.", "quantifier": "all int32 values, offsets 0..31", "why_tests_cant": "one bad offset among many", "anchors": ["fixedpoint/fixedpoint.h:ShiftLeft"]}
{"id": "C40", "title": "EightBitIntGemm honours transposition flags and leading dimensions", "statement": "EightBitIntGemm(ta,tb,tc,m,n,k,a,oa,lda,b,ob,ldb,c,oc,mult,shift,ldc) stores in c, read with its transposition flag and leading dimension, the quantized product of a and b read with theirs, and nothing outside.", "quantifier": "all 8 flag combinations, all sizes, leading dimensions, offsets", "why_tests_cant": "flag x stride x shape space", "anchors": ["eight_bit_int_gemm/eight_bit_int_gemm.cc:EightBitIntGemm"]}
{"id": "C41", "title": "EightBitIntGemm global state behaves as documented", "statement": "A maximum thread count set with SetMaxNumThreads stays in force for later calls, and freeing persistent resources only releases memory.", "quantifier": "all histories of API calls", "why_tests_cant": "history-dependent", "anchors": ["eight_bit_int_gemm/eight_bit_int_gemm.cc:SetMaxNumThreads", "eight_bit_int_gemm/eight_bit_int_gemm.cc:FreePersistentResources"]}
{"id": "C42", "title": "Kernel selection for restricted operand ranges is safe", "statement": "Whenever the declared operand ranges make the library pick a kernel that adds two 8-bit products in a 16-bit lane, no such sum can overflow 16 bits for operands within the declared ranges.", "quantifier": "all operand ranges, all operand values in range", "why_tests_cant": "depends on a single extremal operand combination", "anchors": ["internal/kernel_default.h:DefaultKernel", "internal/kernel_neon.h:NEON_64bit_GEMM_Int8Operands_LhsNonzero", "public/bit_depth.h:BitDepthParams"]}
{"id": "C43", "title": "Quantization example multiplier decomposition", "statement": "QuantizeMultiplierSmallerThanOne decomposes a real multiplier in (0,1) into a normalized int32 multiplier in [2^30,2^31) and a right shift such that the represented value is within a relative error of 2^-31 of the real one, the rounding-up-to-one case being renormalized.", "quantifier": "all real multipliers in (0,1)", "why_tests_cant": "the renormalization branch triggers only for mantissas within 2^-32 of 1", "anchors": ["doc/quantization_example.cc:QuantizeMultiplierSmallerThanOne"]}
{"id": "C44", "title": "Meta GEMM dispatch covers every shape", "statement": "For every m,n,k the compile-time leftover dispatch selects the executor specialised for exactly (m mod M, n mod N, k mod K) and never reaches the fatal branch.", "quantifier": "all m,n,k >= 1 and all kernel tiles", "why_tests_cant": "residue classes times tiles", "anchors": ["meta/single_thread_gemm.h:Dispatch3DStage1", "meta/single_thread_gemm.h:Gemm"]}
{"id": "C45", "title": "Meta GEMM task partition", "statement": "The tasks prepared for a multi-threaded meta GEMM partition the m x n result rectangle: each entry belongs to exactly one task, tasks are non-empty, and at most the requested number are created.", "quantifier": "all m,n,k and task maxima within int range", "why_tests_cant": "unbounded", "anchors": ["meta/multi_thread_gemm.h:PrepareGemmTasks", "meta/legacy_multi_thread_common.h:PrepareTasks", "meta/multi_thread_transform.h:PrepareTransform1DTasks"]}
{"id": "C46", "title": "Meta cache-friendly splitting stays within the scratch budget", "statement": "When the packed panel does not fit in the declared cache size, the cache-friendly executors split it into tasks that together cover the panel, and each task's packed panel fits in the declared cache size.", "quantifier": "all sizes, tiles and cache sizes", "why_tests_cant": "depends on residues of the split", "anchors": ["meta/single_thread_gemm.h:GemmExecutorPackRHSCacheFriendly", "meta/single_thread_gemm.h:internal::CalculateCacheFriendlyTasksCount"]}
{"id": "C47", "title": "Legacy cache-friendly column chunks cover the matrix", "statement": "The legacy cache-friendly driver splits the columns into consecutive chunks that cover every column exactly once, each of positive width and less than twice the optimal width.", "quantifier": "all m,n,k", "why_tests_cant": "unbounded", "anchors": ["meta/legacy_multi_thread_gemm.h:CacheFriendlyMatrixMatrix"]}
{"id": "C48", "title": "Profiler tree weights are consistent", "statement": "In the profile tree built from any multiset of sampled label stacks, a node's weight is the number of samples whose stack starts with the node's path, and the weights of a node's children including 'other' sum to the node's weight.", "quantifier": "all multisets of stacks", "why_tests_cant": "unbounded histories", "anchors": ["profiling/profiler.h:ProfileTreeView", "profiling/instrumentation.h:ProfilingStack"]}
{"id": "C49", "title": "Instruction encoder is injective and consistent", "statement": "The udot/sdot encoder maps distinct instructions (variant, signedness, registers, lane) to distinct 32-bit words and every operand can be read back from the word.", "quantifier": "all register numbers 0..31, all lanes 0..3, both variants", "why_tests_cant": "finite but not tested at all", "anchors": ["standalone/encode.py:encode_udot_sdot_vector", "standalone/encode.py:encode_udot_sdot_element"]}
{"id": "C50", "title": "Exponential on negative values is accurate", "statement": "exp_on_negative_values(a) for int32 raw values with up to 29 integer bits differs from the real exponential of the represented value by at most 2^-22 in absolute terms, and by at most 645 * 2^-31 of the value plus 8 units in the last place. For int16 raw values with up to 13 integer bits it differs by at most 5 * 2^-16.", "quantifier": "all non-positive raw inputs, all integer-bit formats 0..29 (int16: 0..13)", "why_tests_cant": "The repository test compares a few thousand samples with a tolerance; the bound here is for all 2^31 inputs of each of the 30 formats, against the real function rather than a double.", "anchors": ["fixedpoint/fixedpoint.h:exp_on_negative_values", "fixedpoint/fixedpoint.h:exp_on_interval_between_negative_one_quarter_and_0_excl", "test/test_fixedpoint.cc"]}
{"id": "C51", "title": "Logistic is accurate", "statement": "logistic(x) for int32 raw values with up to 29 integer bits differs from 1/(1+exp(-x)) by at most 2^-23. For int16 raw values with up to 13 integer bits it differs by at most 19 * 2^-16.", "quantifier": "all raw inputs (the least one only where negation wraps), all integer-bit formats 0..29", "why_tests_cant": "Sampling cannot bound the error over 2^32 inputs in each of 30 formats.", "anchors": ["fixedpoint/fixedpoint.h:logistic", "fixedpoint/fixedpoint.h:one_over_one_plus_x_for_x_in_0_1"]}
{"id": "C52", "title": "Tanh is accurate", "statement": "tanh(x) for int32 raw values with up to 28 integer bits differs from the real hyperbolic tangent by at most 2^-22. For int16 raw values with up to 12 integer bits it differs by at most 17 * 2^-15.", "quantifier": "all raw inputs (the least one only where negation wraps), all integer-bit formats 0..28", "why_tests_cant": "Sampling cannot bound the error over 2^32 inputs in each of 29 formats.", "anchors": ["fixedpoint/fixedpoint.h:tanh", "fixedpoint/fixedpoint.h:one_minus_x_over_one_plus_x_for_x_in_0_1"]}
{"id": "C53", "title": "The SSE4 and AVX2 assembly kernels compute the block product", "statement": "The inline assembly of SSE4_32_Kernel4x4Depth2, SSE4_64_Kernel12x4Depth2 and AVX2_64_Kernel24x8Depth2 reads only packed data, writes exactly the kRows x kCols block, and stores (or adds, if start_depth is not 0) the exact products modulo 2^32; with these kernels the public entry points compute the documented result.", "quantifier": "all packed contents padded with zeros, all run depths, all initial register contents, all destinations; for the entry points all shapes, orders, offsets, thread counts and schedules", "why_tests_cant": "Tests run on one machine and compare sampled shapes; an extra cell multiplied for odd cell counts or a read beyond the buffer does not show in results.", "anchors": ["internal/kernel_sse.h:SSE4_32_Kernel4x4Depth2::Run", "internal/kernel_sse.h:SSE4_64_Kernel12x4Depth2::Run", "internal/kernel_avx.h:AVX2_64_Kernel24x8Depth2::Run"]}
{"id": "C54", "title": "The NEON and MSA assembly kernels compute the block product", "statement": "The inline assembly of the eight kernels of kernel_neon.h and kernel_msa.h for uint8 operands reads only packed data, writes exactly the kRows x kCols block and stores (or adds, if start_depth is not 0) the exact products modulo 2^32: for all operands, or for operands that are not both -128 (the LhsNonzero kernels), or for products below 4096 (the 12-bit kernel). With these kernels the public entry points compute the documented result, also when the sides are swapped. The restrictions cannot be dropped.", "quantifier": "all packed contents within the restriction, all run depths, all initial register contents, all destinations; for the entry points all shapes, orders, offsets, thread counts and schedules", "why_tests_cant": "A test sees the kernel of the machine it runs on and a few depths; an overflow of a 16-bit sum needs particular pairs of operands, a wrong register number in one of hundreds of instructions shows in one entry only.", "anchors": ["internal/kernel_neon.h:NEON_32_Kernel12x4Depth2::Run", "internal/kernel_neon.h:NEON_32_Kernel12x4Depth2Assuming12BitProducts::Run", "internal/kernel_neon.h:NEON_32bit_GEMM_Int8Operands_LhsNonzero::Run", "internal/kernel_neon.h:NEON_64_Kernel12x8Depth2::Run", "internal/kernel_neon.h:NEON_64_Kernel12x8Depth4_dotprod::Run", "internal/kernel_neon.h:NEON_64bit_GEMM_Int8Operands_LhsNonzero::Run", "internal/kernel_msa.h:MSA_Kernel12x8Depth2::Run", "internal/kernel_msa.h:MSA_GEMM_Int8Operands_LhsNonzero::Run"]}
{"id": "C55", "title": "The fast path of EightBitIntGemm is taken only for layouts it understands", "statement": "Whenever CanHandleMetaFastpath accepts a call, the addresses at which the fast path reads the entries of a and b and writes those of c (contiguous rows of a, contiguous columns of b, contiguous rows or columns of c) are the addresses that the transposition flags and leading dimensions of the call assign to these entries.", "quantifier": "all flags, sizes, leading dimensions, bit depth settings", "why_tests_cant": "needs one-row or one-column operands with a larger leading dimension, a combination that tests of contiguous matrices never form", "anchors": ["eight_bit_int_gemm/eight_bit_int_gemm.cc:CanHandleMetaFastpath", "eight_bit_int_gemm/eight_bit_int_gemm.cc:IsRowMajorOrVector", "eight_bit_int_gemm/eight_bit_int_gemm.cc:MetaGemmQuantized8Bit"]}
{"id": "C56", "title": "The quantization example represents zero exactly and approximates the real product", "statement": "For every range other than [0,0], ChooseQuantizationParams returns a positive scale and a uint8 zero point; 0 is quantized to the zero point and back to 0; every number of the range is quantized to a uint8 that is dequantized to within one step of it; representable numbers survive the round trip; and the result of the whole example, dequantized, differs from the exact product of the real matrices by at most scaleC*(1 + 2^-(s+1) + 65025*depth*r/2^31) + 510*depth*scaleA*scaleB, where r is the real multiplier and s its shift.", "quantifier": "all ranges, all real matrices within their ranges, all shapes with depth at most 33024, all real multipliers in [2^-32, 1-2^-32), all environments and schedules", "why_tests_cant": "the example is run on random 2x4x3 matrices and only printed; error bounds hold over a continuum of inputs", "anchors": ["doc/quantization_example.cc:ChooseQuantizationParams", "doc/quantization_example.cc:Quantize", "doc/quantization_example.cc:Dequantize", "doc/quantization_example.cc:FindMinMax", "doc/quantization_example.cc:main"]}
{"id": "C57", "title": "The profiler samples only threads that still exist", "statement": "In every history in which threads open their first label, end, and the profiler starts, takes samples and finishes, a sample only reads label stacks that are still allocated; starting and finishing alternate or the program aborts.", "quantifier": "all numbers of threads and all interleavings of registrations, thread exits, samples, starts and finishes", "why_tests_cant": "The fault needs a thread that ends between two samples, with key destructors run in one of the two permitted orders; a test run rarely ends a thread while profiling and a freed stack usually still reads as valid.", "anchors": ["profiling/instrumentation.h:ThreadInfo", "profiling/instrumentation.h:RegisterCurrentThreadForProfiling", "profiling/profiler.h:ProfilerThreadFunc", "profiling/profiler.h:StartProfiling", "profiling/profiler.h:FinishProfiling"]}
{"id": "C58", "title": "The meta GEMM drivers store exactly the entries of the product", "statement": "If the generated code packs lanes and multiplies packed panels as its interface says, then Gemm with the PackRHS and PackLHS executors and their cache-friendly versions, MultiThreadGemm, and the legacy entry points multi_thread_gemm_q8/i32/f store every entry of the m x n result with the value that its row of lhs and its column of rhs give, store nothing else, and stay within the scratch memory that EstimateScratchSize and gemm_*_scratch announce.", "quantifier": "all m, n, k, strides, thread counts, operand and scratch contents, kernel shapes, and all schedules of the tasks", "why_tests_cant": "Sizes that overrun the scratch memory need tens of thousands of columns at depths 8 to 11; overruns go unnoticed unless the memory behind it is guarded.", "anchors": ["meta/single_thread_gemm.h:GemmExecutorPackRHS", "meta/single_thread_gemm.h:GemmExecutorPackLHS", "meta/single_thread_gemm.h:GemmExecutorPackRHSCacheFriendly", "meta/multi_thread_gemm.h:MultiThreadGemm", "meta/legacy_multi_thread_gemm.h:multi_thread_gemm_q8", "meta/legacy_multi_thread_common.h:MultiThreadedMatrixMatrix", "meta/legacy_single_thread_gemm.h:gemv_q8", "meta/streams.h:StreamUtil"]}
{"id": "C59", "title": "Packing with vector instructions has the same effect as the portable packing", "statement": "In each build (SSE4, AVX2, NEON on 32 and 64 bits, MSA, portable), PackingRegisterBlock::Pack of a complete register block writes each source coefficient, re-centred if the kernel takes int8, at the place its cell format assigns to it, adds the sum of each column over the block to its slot of sums_of_each_slice, and changes nothing else; hence PackL2 of a whole side of any size yields the same packed block in every build.", "quantifier": "all cell formats of each build, all source layouts, strides and contents, all positions and earlier contents of the packed block, all sizes of the side", "why_tests_cant": "the formats and layouts that select a vector path depend on the build; tests run on one machine compare final results with tolerances, and a wrong slice sum only shows with a nonzero offset of the other side", "anchors": ["internal/pack_sse.h:PackingRegisterBlock", "internal/pack_avx.h:PackingRegisterBlock", "internal/pack_neon.h:PackingRegisterBlock", "internal/pack_msa.h:PackingRegisterBlock", "internal/pack.h:PackingRegisterBlockBase"]}
{"id": "C60", "title": "The output stages give the same result in every build", "statement": "UnpackResult with the SSE4, NEON or MSA specialisations of register blocks, output stages, casts and stores writes for every accumulator, wherever it lies in the result, the value that the portable code writes; so a GEMM leaves the same memory in every build in which its pipeline compiles.", "quantifier": "all shapes, layouts, strides and positions, all accumulators, all pipelines that compile, all offsets and per-channel parameters", "why_tests_cant": "whether an accumulator is handled in a vector register or as a scalar depends on its position in the block; the differing inputs are single points among 2^32 or need accumulators near overflow", "anchors": ["internal/output_sse.h", "internal/output_neon.h", "internal/output_msa.h", "internal/simd_wrappers_common_neon_sse.h", "internal/simd_wrappers_neon.h", "internal/simd_wrappers_sse.h", "internal/simd_wrappers_msa.h", "internal/unpack.h:UnpackResult"]}
{"id": "C61", "title": "Matrices of int8", "statement": "For a declared signed range of the left-hand side for which anything compiles, a GEMM of a row-major int8 matrix by a column-major int8 matrix stores what the output stages make of the sums of (lhs + lhs_offset) * (rhs + rhs_offset) of the signed entries; and it leaves the same memory as the uint8 GEMM of the entries plus 128 with offsets smaller by 128.", "quantifier": "all shapes, strides, depths, thread counts, signed entries in the declared range, offsets, pipelines, architectures and declared ranges", "why_tests_cant": "the repository has no end-to-end test of int8 inputs; the signed kernels add pairs of products in 16 bits, so a wrong restriction shows only for extreme pairs at the same depth position", "anchors": ["internal/kernel.h:KernelSideFormatInt8Inputs", "internal/pack_neon.h:320-380", "internal/kernel_neon.h:NEON_32bit_GEMM_Int8Operands_LhsNonzero_Int8Inputs", "internal/kernel_neon.h:NEON_64bit_GEMM_Int8Operands_LhsNonzero_Int8Inputs", "internal/kernel_default.h:74-87"]}
{"id": "C62", "title": "The generated code of meta/ for 64-bit and 32-bit ARM", "statement": "Packing 1 to 8 rows or columns reads only their elements and writes them in groups of eight with zero padding, followed by the sums times an offset plus another; the multiplication kernels of all sizes turn packed operands into the quantized, int32 or float entries; so the meta drivers and the legacy entry points, with this code and without assumptions about it, store exactly the entries of the product with offsets.", "quantifier": "all bytes, sizes, depths up to 2056, strides, offsets, register contents, kernel shapes, thread counts and scratch contents; on 32-bit ARM scratch memory at a multiple of 32 bytes", "why_tests_cant": "for each of the two processors there are 128 packing routines and 45 kernels, each with its own generated assembly; the repository's tests call a few shapes, and a read one element too far or a dropped remainder lane does not show unless the neighbouring memory is hostile", "anchors": ["meta/streams_arm_64.h", "meta/quantized_mul_kernels_arm_64.h", "meta/streams_arm_32.h", "meta/quantized_mul_kernels_arm_32.h", "meta/streams.h", "meta/quantized_mul_kernels.h", "meta/legacy_multi_thread_gemm.h", "meta/legacy_single_thread_gemm.h"]}
{"id": "C63", "title": "EightBitIntGemm with the fast path", "statement": "With GEMMLOWP_USE_META_FASTPATH on 64-bit or 32-bit ARM, EightBitIntGemm leaves the memory that it leaves without: every entry of c, found by its flag and leading dimension, is the quantized (or float) sum, the rest is unchanged, whichever path is taken.", "quantifier": "all flags, sizes, leading dimensions, contents, offsets, thread counts, orders of stores, earlier states of the scratch memory and contents of registers and scratch", "why_tests_cant": "the path taken depends on flags, strides and depth, and the two paths share no code; they differ only for rare combinations such as a product within the rounding constant of 2^31", "anchors": ["eight_bit_int_gemm/eight_bit_int_gemm.cc:185-336", "meta/legacy_multi_thread_gemm.h", "meta/quantized_mul_kernels_arm_64.h", "meta/streams_arm_64.h", "meta/quantized_mul_kernels_arm_32.h", "meta/streams_arm_32.h"]}
{"id": "C64", "title": "The one-dimensional transformations of meta/", "statement": "Transform1D with Quantize, Dequantize, Requantize, MinMax or BiasAdd on 64-bit ARM gives every element of the output the value of its formula for the element of the input (and the bias of its column), for every count of at least one, reads only the input and leaves the rest of memory as it was, also in place; MultiThreadTransform1D leaves the same memory as one thread, whatever the threads see of each other and in whatever order their stores take effect.", "quantifier": "all counts, rows, bytes, parameters, positions of input and output where results do not reach elements still to be read, thread counts, orders of stores, register contents and behaviours of the floating-point unit", "why_tests_cant": "there are 80 generated routines, one for each transformation and remainder; test_transform_correctness.cc compares within a tolerance and does not look at memory around the output or at in-place use", "anchors": ["meta/transform_kernels_arm_64.h", "meta/transform_kernels.h", "meta/single_thread_transform.h", "meta/multi_thread_transform.h"]}
{"id": "C65", "title": "The one-dimensional transformations of meta/ on 32-bit ARM", "statement": "Transform1D with Quantize, Dequantize, Requantize, MinMax or BiasAdd on 32-bit ARM gives every element of the output the same value as on 64-bit ARM (the formula of the transformation), for every count of at least one, reads only the input and leaves the rest of memory as it was, also in place; MultiThreadTransform1D leaves the same memory as one thread.", "quantifier": "all counts, rows, bytes, parameters, positions of input and output where results do not reach elements still to be read, thread counts, orders of stores, register contents and behaviours of the floating-point unit", "why_tests_cant": "there are 80 more generated routines with other registers and other instructions than on 64-bit ARM; test_transform_correctness.cc runs on one machine, compares within a tolerance and never compares the two", "anchors": ["meta/transform_kernels_arm_32.h", "meta/transform_kernels.h", "meta/single_thread_transform.h", "meta/multi_thread_transform.h"]}
{"id": "C66", "title": "Alignment of the scratch memory of meta/ on 32-bit ARM", "statement": "The packing code for n lanes works if and only if the destination is a multiple of gcd(32, 8n) bytes; otherwise it faults, for every operand and every depth; so a meta Gemm faults before it computes anything if it has at least one full chunk on the side packed first and the scratch memory is not so aligned. 64-bit ARM needs no alignment, and the scratch memory of EightBitIntGemm always has it.", "quantifier": "all lanes, depths, sources, destinations, contents, kernel shapes, sizes and scratch addresses", "why_tests_cant": "whether a test passes depends on the addresses its allocator happens to return; the repository's own tests pass plain new[] memory", "anchors": ["meta/streams_arm_32.h", "meta/single_thread_gemm.h", "meta/test_gemm_correctness.cc:355", "eight_bit_int_gemm/eight_bit_int_gemm.cc:147-157"]}
{"id": "C67", "title": "Accuracy of the floating-point results of meta/", "statement": "With IEEE 754 binary32 arithmetic rounded to nearest (subnormal numbers flushed on 32-bit ARM): Quantize, Dequantize, Requantize, BiasAdd and the products with float results store what their formula gives for the real numbers, up to an explicit bound on the rounding errors before the final conversion; Quantize, Dequantize and Requantize keep the order of the elements, overflow and infinities included; Quantize stores 0 for NaN; Dequantize and then Quantize with inverse scales gives back every byte or the byte below it.", "quantifier": "all finite parameters and elements whose formula does not overflow (for order and NaN: all elements), both architectures, all counts and addresses", "why_tests_cant": "there are 2^32 elements for each choice of seven 32-bit parameters; the repository's tests compare one choice with the same formula computed in float", "anchors": ["meta/transform_kernels_arm_64.h", "meta/transform_kernels_arm_32.h", "meta/quantized_mul_kernels_arm_64.h", "meta/quantized_mul_kernels_arm_32.h", "meta/test_transform_correctness.cc:75-96", "meta/test_transform_correctness.cc:184-230"]}
{"id": "C68", "title": "The thread pool is free of data races under the C++ memory model", "statement": "In every execution of the worker pool that the C++ memory model allows (loads of the atomics may see older stores): no two threads access the client's memory, a task object, or the pool's and the workers' own members without synchronization; no assertion fails; the pool goes through the same states as if every load saw the latest store, so each task runs exactly once; when a call returns, everything its tasks did happened before what the caller does next, and what the caller did before the call happened before the tasks; when the pool has been destroyed, everything its threads did happened before; fairly scheduled executions terminate; a matrix product computed by the pool has the result of C01. Only the release of the counter's decrement and the acquire of the load that waits for it are needed for that; without either one, the caller races with the workers.", "quantifier": "all scripts of calls whose tasks do not conflict within a call, all interleavings, all choices of the message each load reads, all memory orders that include those two, any accesses of the client between calls", "why_tests_cant": "reorderings depend on the processor and on timing; x86 hosts do not show most of them, and a missing release or acquire passes every test there", "anchors": ["internal/multi_thread_gemm.h:110-137", "internal/multi_thread_gemm.h:147-213", "internal/multi_thread_gemm.h:225-352", "internal/multi_thread_gemm.h:357-455"]}
{"id": "C69", "title": "The tanh output stage is accurate", "statement": "For a zero point z and an amplitude a >= 1 such that z - 8a and z + 8a are int32 numbers, the constructor of the tanh stage ends, and the stage turns an accumulator x into a number between z - a and z + a that differs from z + a tanh((x - z) / a) by less than 2 + a / 2^21; in scalar code and in vector registers, in every block, and in the result of a matrix product. Relative to an amplitude of 11000 and more the error is below the 0.0002 that test.cc allows.", "quantifier": "all zero points and amplitudes in that range, all accumulators (scalar arithmetic modulo 2^32; in vector registers all but z + 8a - 1 and z + 8a - 2; in C++ arithmetic those from z - 8a + 3 on), all block shapes", "why_tests_cant": "test.cc runs one zero point and one amplitude on a few thousand accumulators; the error depends on the rounding of two reciprocals and of a chain of fixed-point operations", "anchors": ["internal/output.h:355-442", "public/output_stages.h:196-205", "fixedpoint/fixedpoint.h:526-533", "fixedpoint/fixedpoint.h:806-848"]}
{"id": "C70", "title": "Conversions between fixed point and double are exact or nearest; the checks of the constants never fail", "statement": "FromDouble gives the representable fixed-point number nearest to the double (halves away from zero, ends of the range for what lies outside); ToDouble is exact; ToDouble followed by FromDouble gives back the same number. With GEMMLOWP_ENABLE_FIXEDPOINT_CONSTANTS_CHECKS, exp_on_negative_values, tanh and logistic on int16 and int32 give what they give without it: no assertion on a constant ever fails, provided std::exp is off by at most 2^-45 at the eight points where it is called.", "quantifier": "all doubles (53-bit significand, any exponent), all widths up to 53 bits and all numbers of integer bits; for the checks: both widths, all numbers of integer bits for which the types exist, all arguments, every accurate std::exp", "why_tests_cant": "the constants are checked only in a special build, for the types and branches that a run happens to use; the margin at exp(-8) is 0.008 of a unit", "anchors": ["fixedpoint/fixedpoint.h:526-533", "fixedpoint/fixedpoint.h:667-674", "fixedpoint/fixedpoint.h:697-727", "fixedpoint/fixedpoint.h:731-899"]}
{"id": "C71", "title": "The quantization example does in IEEE arithmetic what it documents", "statement": "With float as binary32 and double as binary64, every operation rounded: for every range of a width from 2^-117 to 2^127 ChooseQuantizationParams gives a scale within a relative error of 2^-21 of a 255th of the width and the zero point nearest to the place of 0, up to 2^-12. Quantize and Dequantize represent 0 exactly, give every byte back, keep the order of all floats including infinities, and lose at most one scale (half a scale between representable numbers), up to 2^-10 of it. NaN is quantized to 255. QuantizeMultiplierSmallerThanOne is exact for every float between 0 and 1 and rejects all others. FindMinMax returns the least and greatest entry unless the first is NaN. The dequantized entry of the quantized product differs from the reference product by at most one step of the result, the roundings of the output stage, 513 products of steps per term, and the error of the reference, which is bounded.", "quantifier": "All floats (bit patterns), all matrices and depths, all parameters with a finite positive scale; the widths and products of scales stated.", "why_tests_cant": "The example runs one 2x4 by 4x3 product of random numbers in [-1, 1]; there are 2^64 ranges, and rounding errors in three formats add up differently for each. Subnormal scales, infinities and NaN never occur in it.", "anchors": ["doc/quantization_example.cc:42-53", "doc/quantization_example.cc:71-112", "doc/quantization_example.cc:114-151", "doc/quantization_example.cc:210-241", "doc/quantization_example.cc:330-375"]}
{"id": "C72", "title": "Sizes, loop counters and addresses fit into int", "statement": "If every entry of the three matrices has an address whose two int products fit, and the bytes of the packed LHS, the bytes of the packed RHS and the entries of the packed result (each with rounded sizes) are less than 2^31, then no int operation on sizes, loop counters, positions or addresses in SingleThreadGemm or MultiThreadGemm overflows, and the block sizes, addresses and positions are the mathematical ones. With the L2 factor of x86 the bound on the packed LHS is exact: a product with a larger packed LHS overflows, even if all its entries are addressable.", "quantifier": "All kernel formats with up to 1024 rows and columns, all sizes, strides and storage orders, all cache sizes up to 512 MB and factors, any number of threads.", "why_tests_cant": "Matrices of two gigabytes are not tested; the limit depends on kernel, cache sizes, thread count and strides together.", "anchors": ["internal/block_params.h:46-142", "internal/pack.h:50-73", "internal/pack.h:242-394", "internal/compute.h:51-102", "internal/unpack.h:32-36", "internal/unpack.h:129-276", "internal/single_thread_gemm.h:65-150", "internal/multi_thread_gemm.h:489-524", "internal/multi_thread_gemm.h:666-717", "public/map.h:59-76"]}
{"id": "C73", "title": "The pthread functions for Windows are pthread functions", "statement": "If a program uses the functions of pthread_everywhere.h as POSIX allows, then none of them violates a precondition of std::thread, std::mutex, std::condition_variable or std::unique_lock, and every execution is an execution of POSIX mutexes, condition variables and threads. A thread waits only where POSIX lets it wait; pthread_cond_wait returns with the mutex locked by its caller; the mutex and condition variable objects alive are those of the initialized variables. The std::thread objects are never freed: there are as many as threads were ever created.", "quantifier": "All programs, any number of threads and variables, all schedules, including spurious wakeups.", "why_tests_cant": "Which thread runs, is woken or wakes spuriously cannot be enumerated; an unlock too many or a freed object is undefined and often has no visible effect.", "anchors": ["profiling/pthread_everywhere.h:45-73", "internal/multi_thread_gemm.h:230-244"]}
{"id": "C74", "title": "The worker pool uses the pthread functions as POSIX allows", "statement": "Every pthread call of the worker pool is allowed by POSIX: mutexes are locked and unlocked by the right thread, no mutex or condition variable is used before it is initialized or destroyed while in use, every thread is joined once. The pool waits exactly where a pthread function has to wait, and when it is destroyed all of its mutexes and condition variables are destroyed and all of its threads joined. The same holds with the functions of pthread_everywhere.h on Windows, except that each worker leaves a std::thread object behind.", "quantifier": "All sequences of Execute calls, any number of tasks and workers, all schedules, including spurious wakeups.", "why_tests_cant": "A misuse of a mutex needs a rare interleaving and is undefined rather than reported.", "anchors": ["internal/multi_thread_gemm.h:110-137", "internal/multi_thread_gemm.h:230-294", "internal/multi_thread_gemm.h:297-331", "internal/multi_thread_gemm.h:369-437", "profiling/pthread_everywhere.h:45-73"]}
{"id": "C75", "title": "The buffers of the GEMM are where and as large as it needs them", "statement": "Whatever GEMMs run with a context, single- or multi-threaded, and however their threads interleave: no assertion of an allocator fails, destroying the context afterwards frees all that the allocators allocated, and whenever the code asks for a packed side, its sums or the packed result, the pointer is aligned to 64 bytes, the bytes that the code accesses lie in the storage, and no other buffer in use on this allocator overlaps them. This holds for all block sizes whose buffers need at most half of the range of size_t: on 64-bit systems for all sizes that fit into int, on 32-bit systems exactly up to 2^31 bytes.", "quantifier": "All sequences of GEMM calls with one context, all block sizes and thread counts, all interleavings, all results of aligned_alloc, size_t of 32 and 64 bits.", "why_tests_cant": "A buffer that is too small or overlaps another corrupts memory silently, and the sizes where it happens take gigabytes.", "anchors": ["internal/allocator.h:95-167", "internal/pack.h:51-94", "internal/unpack.h:32-50", "internal/single_thread_gemm.h:89-152", "internal/multi_thread_gemm.h:377-395", "internal/multi_thread_gemm.h:489-524", "internal/multi_thread_gemm.h:673-716", "internal/common.h:155-164"]}
{"id": "C76", "title": "The kernels of the kernel benchmark agree with its reference", "statement": "Each kernel for 8-bit operands in the kernel benchmark, in assembly or with intrinsics, run on the buffers that the benchmark allocates, with operands in the ranges that the benchmark sets for it, any initial accumulators and any depth that is a positive multiple of the depth of its cells, reads only within these buffers and leaves in every accumulator what ReferenceKernel leaves there.", "quantifier": "All operands in KernelOperandRanges, all accumulators, all depths that are positive multiples of Format::kDepth, all register contents at the start.", "why_tests_cant": "test_kernel compares one random input per depth, up to 1024; an overflow of a 16-bit accumulator needs particular operands, and a read after the end of a buffer is mostly invisible.", "anchors": ["standalone/neon-gemm-kernel-benchmark.cc:243-288", "standalone/neon-gemm-kernel-benchmark.cc:5594-5672", "standalone/neon-gemm-kernel-benchmark.cc:5728-5790"]}
{"id": "C77", "title": "The int32 and float kernels of the kernel benchmark agree with its reference", "statement": "Each kernel for int32 or float operands in the kernel benchmark, in assembly or with intrinsics, run on the buffers that the benchmark allocates, with any operands and any initial accumulators for which ReferenceKernel is defined, and any depth that is a positive multiple of the depth of its cells, reads only within these buffers. In every accumulator it leaves exactly what ReferenceKernel leaves there if the reference's multiply-add is the kernel's own (two roundings or fused): it does the same multiply-adds in the same order.", "quantifier": "All types of words, all multiply-add operations on them, all operands and accumulators, all depths that are positive multiples of Format::kDepth, all register contents at the start.", "why_tests_cant": "test_kernel compares floats up to a tolerance, on one random input per depth up to 1024; it cannot see that operations are reordered, nor a read after the end of a buffer.", "anchors": ["standalone/neon-gemm-kernel-benchmark.cc:879-1780", "standalone/neon-gemm-kernel-benchmark.cc:3675-4537", "standalone/neon-gemm-kernel-benchmark.cc:4670-4722", "standalone/neon-gemm-kernel-benchmark.cc:5594-5672"]}
{"id": "C78", "title": "The kernel benchmark times kernels at a depth that fits in the cache", "statement": "For every kernel and every value of CACHE_SIZE_KB (16 by default), BenchmarkDepthToFitInCache returns the greatest multiple of 64 from 64 to 1024 for which both operands, the accumulators and two cache lines fit into the cache; it is a multiple of the depth of the kernel's cells, so that the kernel runs a whole positive number of passes.", "quantifier": "All kernels (any widths and operand sizes), all integers CACHE_SIZE_KB.", "why_tests_cant": "The benchmark is run with one cache size; the value of the environment variable is not looked at, and a depth that is not positive only shows as a crash or as a run without an end.", "anchors": ["standalone/neon-gemm-kernel-benchmark.cc:5793-5842", "standalone/neon-gemm-kernel-benchmark.cc:5850-5899"]}
{"id": "C79", "title": "The cache counter tool reads only its buffer, at addresses from a generator of full period", "statement": "For every buffer content, every power of two size from 8 bytes to 2^30 that the buffer holds and every positive number n of accesses, Workload makes exactly n loads, each at the start of the 64-byte line given by the pseudorandom number mixed with the data, modulo size, all inside the first size bytes. No pseudorandom number of a run is 0 or occurs twice. main calls it with thirteen sizes, all within its buffer.", "quantifier": "All buffers and contents, all power of two sizes, all positive int counts of accesses.", "why_tests_cant": "The addresses depend on the data, and the period of the generator (2^32-1) is not seen in any run that is short enough to look at.", "anchors": ["standalone/cache_counters.cc:143-191", "standalone/cache_counters.cc:389-404"]}
{"id": "C80", "title": "The charts of the cache counter tool add up, are not negative, and are true for ideal counters", "statement": "For all values of the counters, Study fills in all five charts without overflow, the consistency check in the destructor of PieChart does not abort, and no share is negative. If every access is counted at each cache it gets to and each refill it causes, the charts give the true numbers of accesses found at each level.", "quantifier": "All counter values; all sequences of accesses.", "why_tests_cant": "The counters come from the hardware and cannot be chosen; unusual combinations do not occur on the machine at hand.", "anchors": ["standalone/cache_counters.cc:241-331", "standalone/cache_counters.cc:356-387"]}
{"id": "C81", "title": "Generators of the meta kernels never get overlapping registers and list all clobbers", "statement": "Whatever sequence of requests and returns a generator makes, the registers that it holds from _NeonRegisters32Bit or _NeonRegisters64Bit have no physical register in common (a quad register of 32-bit ARM being two double ones); returning a held register never fails an assertion; a request is answered whenever a fitting register is free; the list of clobbers names exactly the registers ever given out; after all are returned, all are free. No register that is given out is the stack pointer or the program counter.", "quantifier": "All finite sequences of requests (double, quad with any minimum, general) and returns of held registers, in both classes.", "why_tests_cant": "There are no tests of the generators; only the sequences of the checked-in kernels have ever been run.", "anchors": ["meta/generators/neon_emitter.py:81-172", "meta/generators/neon_emitter_64.py:330-408"]}
{"id": "C82", "title": "Matrices of the tests are copied and compared faithfully", "statement": "For scalars of every size, operator= of the test class Matrix gives a matrix with the shape and elements of the original, whatever was there before, and operator== is true exactly for matrices of the same shape and elements.", "quantifier": "All shapes, all elements, all sizes of scalars.", "why_tests_cant": "The class is part of the tests and is not tested itself; a comparison that is too lenient makes tests pass.", "anchors": ["test/test.h:46-93", "test/benchmark_all_sizes.cc:52-99"]}
{"id": "C83", "title": "The benchmark of all sizes reports the best latency of each shape, whatever the order", "statement": "For every sequence of measurements of run_benchmarks, the table that main prints is strictly ascending by depth, rows and columns and has exactly one line for each shape measured, with the least latency measured for it. Shuffling the measurements (of all passes together) does not change the table.", "quantifier": "All sequences of pairs of a shape and a latency, all permutations of them.", "why_tests_cant": "The order of the measurements and the latencies are random; the program has no tests.", "anchors": ["test/benchmark_all_sizes.cc:206-221", "test/benchmark_all_sizes.cc:320-348"]}
{"id": "C84", "title": "MakeRandom of the tests fills the matrix with one draw per element, in the range of the operand", "statement": "MakeRandom stays inside of the storage of the matrix, draws exactly once for each element, gives element (r, c) draw r + c * rows in either storage order, and every element is in the range OperandRange; with every compiler each value of the range is possible.", "quantifier": "All numbers of rows and columns, both storage orders, all old contents, all results of the random engine, all ranges that the scalar type holds.", "why_tests_cant": "It is the source of the inputs of the tests: values outside of the range, or missing ones, make the tests wrong or weaker without a failure.", "anchors": ["test/test.h:100-130", "public/bit_depth.h:23-34", "test/test.cc:1677"]}
