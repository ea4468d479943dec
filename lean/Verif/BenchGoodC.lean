import Verif.BenchProof
import Verif.BenchProgF
/-!
# The kernels of parts E and F pass the check
-/
namespace Gemmlowp.Bench

theorem intrTwo2_good : (intrTwo 2).Good := Kern.good (by decide +kernel) (by decide +kernel) (by decide +kernel)
theorem intrTwo4_good : (intrTwo 4).Good := Kern.good (by decide +kernel) (by decide +kernel) (by decide +kernel)
theorem intrU8_1_good : (intrU8 1).Good := Kern.good (by decide +kernel) (by decide +kernel) (by decide +kernel)
theorem intrU8_2_good : (intrU8 2).Good := Kern.good (by decide +kernel) (by decide +kernel) (by decide +kernel)
theorem intrSeven_good : intrSeven.Good := Kern.good (by decide +kernel) (by decide +kernel) (by decide +kernel)

theorem msa3_good : msa3.Good := Kern.good (by decide +kernel) (by decide +kernel) (by decide +kernel)

end Gemmlowp.Bench
