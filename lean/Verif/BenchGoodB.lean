import Verif.BenchProof
import Verif.BenchProgC
import Verif.BenchProgD
/-!
# The kernels of parts C and D pass the check
-/
namespace Gemmlowp.Bench

theorem a64Narrow_good : a64Narrow.Good := Kern.good (by decide +kernel) (by decide +kernel) (by decide +kernel)
theorem a64Seven_good : a64Seven.Good := Kern.good (by decide +kernel) (by decide +kernel) (by decide +kernel)
theorem a64Dot_good : a64Dot.Good := Kern.good (by decide +kernel) (by decide +kernel) (by decide +kernel)
theorem a64DotA55_good : a64DotA55.Good := Kern.good (by decide +kernel) (by decide +kernel) (by decide +kernel)
theorem msa1_good : msa1.Good := Kern.good (by decide +kernel) (by decide +kernel) (by decide +kernel)
theorem msa2_good : msa2.Good := Kern.good (by decide +kernel) (by decide +kernel) (by decide +kernel)

end Gemmlowp.Bench
