import Verif.Base
import Verif.Common
import Verif.Map
import Verif.KernelFormat
import Verif.BlockParams
import Verif.Pack
import Verif.PackAddr
import Verif.PackProof
import Verif.PackProof2
import Verif.Kernel
import Verif.Compute
import Verif.RegBlock
import Verif.Unpack
import Verif.UnpackProof
import Verif.UnpackProof2
import Verif.Gemm
import Verif.GemmProof
import Verif.GemmProof2
import Verif.Pool
import Verif.PoolProof
import Verif.PoolProof2
import Verif.PoolProof3
import Verif.PoolProof4
import Verif.PropsPool
import Verif.MultiThread
import Verif.MultiThreadProof
import Verif.MultiThreadProof2
import Verif.FixedPoint
import Verif.FixedSpec
import Verif.FixedProof
import Verif.PropsFixed
import Verif.Transcendental
import Verif.Output
import Verif.OutputProof
import Verif.OutputSpec
import Verif.PropsOutput
import Verif.Dispatch
import Verif.GemmSpec
import Verif.DispatchProof
import Verif.PropsGemm
import Verif.PropsLayout
import Verif.TransProof
import Verif.TransProof2
import Verif.AccProof
import Verif.AccProof2
import Verif.PropsTrans
import Verif.Alloc
import Verif.AllocSpec
import Verif.AllocProof
import Verif.PropsAlloc
import Verif.Simd
import Verif.SimdSpec
import Verif.SimdProof
import Verif.SimdProof2
import Verif.SimdProof3
import Verif.SimdProof4
import Verif.PropsSimd
import Verif.SimdTrans
import Verif.SimdTransProof
import Verif.PropsSimdTrans
import Verif.AsmStore
import Verif.X86
import Verif.X86Proof
import Verif.X86Proof2
import Verif.PropsX86
import Verif.Vec128
import Verif.Neon64
import Verif.Vec128Proof
import Verif.LnzProof
import Verif.Neon64Proof
import Verif.Neon64Proof2
import Verif.Neon32
import Verif.Msa
import Verif.Neon32Proof
import Verif.MsaProof
import Verif.Neon12
import Verif.Neon12Proof
import Verif.PropsNeon
import Verif.KernelSelect
import Verif.PropsKernelSelect
import Verif.EightBit
import Verif.PropsEightBit
import Verif.Encode
import Verif.PropsEncode
import Verif.Quantize
import Verif.PropsQuantize
import Verif.Profiler
import Verif.PropsProfiler
import Verif.Meta
import Verif.MetaProof
import Verif.PropsMeta
import Verif.PropsMetaGemm
import Verif.PropsMetaLegacy
import Verif.PackEffect
import Verif.PackSimd
import Verif.PackSimdProof
import Verif.PackSimdProof2
import Verif.PackSimdProof3
import Verif.PropsPack
import Verif.OutSimd
import Verif.OutStore
import Verif.OutSimdProof
import Verif.OutSimdSpec
import Verif.OutSimdProof2
import Verif.OutCastProof
import Verif.OutStoreProof
import Verif.OutVecProof
import Verif.OutBuild
import Verif.OutBuildProof
import Verif.PropsOutSimd
import Verif.PropsInt8
import Verif.TransProof16
import Verif.TransProof16b
import Verif.AccProof16
import Verif.PropsTrans16
import Verif.MetaAsm
import Verif.MetaAsmSym
import Verif.MetaStreamsRow
import Verif.MetaStreamsCol
import Verif.MetaKernels
import Verif.MetaPackProof
import Verif.MetaRowProof
import Verif.MetaKernelProof
import Verif.MetaColProof
import Verif.MetaArm
import Verif.MetaArmProof
import Verif.PropsMetaArm
import Verif.MetaFast
import Verif.PropsMetaFast
import Verif.MetaTransforms
import Verif.MetaBiasAdd
import Verif.MetaTransform
import Verif.MetaLane
import Verif.MetaTransformCheck
import Verif.MetaTransformProof
import Verif.PropsMetaTransform
import Verif.MetaAsm32
import Verif.MetaTransforms32
import Verif.MetaBiasAdd32
import Verif.MetaTransform32
import Verif.MetaTransformCheck32
import Verif.PropsMetaTransform32
import Verif.MetaAlign
import Verif.MetaStreamsRow32
import Verif.MetaStreamsCol32
import Verif.MetaKernels32
import Verif.MetaArm32Check
import Verif.MetaArm32Proof
import Verif.MetaMisalign
import Verif.PropsMetaAlign
import Verif.Float32
import Verif.Float32Proof
import Verif.Float32Ops
import Verif.Float32Acc
import Verif.Float32Order
import Verif.PropsFloat
import Verif.WeakPool
import Verif.WeakProof
import Verif.WeakInv
import Verif.WeakWorker
import Verif.WeakWorker2
import Verif.WeakMaster
import Verif.WeakMaster2
import Verif.WeakMaster3
import Verif.WeakStep
import Verif.WeakLive
import Verif.PropsWeak
import Verif.PropsWeakGemm
import Verif.TanhStage
import Verif.TanhInit
import Verif.TanhReal
import Verif.TanhStageProof
import Verif.TanhStageEval
import Verif.PropsTanhStage
import Verif.FixedDouble
import Verif.PropsFixedDouble
import Verif.FloatExample
import Verif.FloatExampleProof
import Verif.PropsFloatExample
import Verif.PropsFloatEntry
import Verif.IntSizes
import Verif.IntSizesProof
import Verif.IntSizesPack
import Verif.IntSizesGemm
import Verif.PropsIntSizes
import Verif.PthreadShim
import Verif.PthreadSpec
import Verif.PthreadProof
import Verif.PropsPthread
import Verif.PthreadPool
import Verif.PthreadPoolProof
import Verif.PropsPthreadPool
import Verif.GemmAlloc
import Verif.GemmAllocProof
import Verif.PropsGemmAlloc
import Verif.Bench
import Verif.BenchSym
import Verif.BenchKern
import Verif.BenchProof
import Verif.BenchRef
import Verif.BenchProgA
import Verif.BenchProgB
import Verif.BenchProgC
import Verif.BenchProgD
import Verif.BenchGoodA
import Verif.BenchGoodB
import Verif.PropsBench
import Verif.BenchProgE
import Verif.BenchProgF
import Verif.BenchGoodC
import Verif.BenchMem
import Verif.BenchOver
import Verif.BenchProgG
import Verif.PropsBenchInt425
import Verif.BenchGrow
import Verif.BenchProgH
import Verif.PropsBenchInt425Intr
import Verif.BenchW
import Verif.BenchWSym
import Verif.BenchWRef
import Verif.BenchWProgA
import Verif.BenchWProgB
import Verif.PropsBenchWord
import Verif.BenchDepth
import Verif.PropsBenchDepth
import Verif.CacheCount
import Verif.XorshiftTable
import Verif.PropsCacheCount
import Verif.RegAlloc
import Verif.PropsRegAlloc
import Verif.TestMatrix
import Verif.PropsTestMatrix
import Verif.BenchAll
import Verif.PropsBenchAll
import Verif.TestRandom
import Verif.PropsTestRandom
