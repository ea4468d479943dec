import Verif.BenchProof
import Verif.BenchProgA
import Verif.BenchProgB
/-!
# The kernels of parts A and B pass the check
-/
namespace Gemmlowp.Bench

theorem arm8_good : arm8.Good := Kern.good (by decide +kernel) (by decide +kernel) (by decide +kernel)
theorem armNoexpand_good : armNoexpand.Good := Kern.good (by decide +kernel) (by decide +kernel) (by decide +kernel)
theorem armTwo_good : armTwo.Good := Kern.good (by decide +kernel) (by decide +kernel) (by decide +kernel)
theorem a64u8_good : a64u8.Good := Kern.good (by decide +kernel) (by decide +kernel) (by decide +kernel)
theorem a64Noexpand_good : a64Noexpand.Good := Kern.good (by decide +kernel) (by decide +kernel) (by decide +kernel)
theorem a64Two_good : a64Two.Good := Kern.good (by decide +kernel) (by decide +kernel) (by decide +kernel)

end Gemmlowp.Bench
