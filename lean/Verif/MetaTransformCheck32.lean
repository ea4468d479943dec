import Verif.MetaTransformCheck
import Verif.MetaTransform32
/-!
# The code of the transformations for 32-bit ARM, symbolically
-/
namespace Gemmlowp.MetaAsm

/-- `Requantize` on 32-bit ARM: `output_range_offset` is not used, and the result is rounded to zero. -/
def rq32Kind : Kind where
  si := 4
  so := 1
  ctr := .count
  bp := none
  consts := [(4, .sub .inputMin .outputMin), (6, .w .inputOffset), (7, .w .inputScale), (8, .w .outputInvScale)]
  keep := []
  expr a _ := .satU8 (.sat16 (.f1 .fcvtzs (.f2 .fmul (.f2 .fadd (.f2 .fmul (.f2 .fsub (.f1 .scvtf a)
    (.parW (.lin (.par .inputOffset) 0 0))) (.parW (.lin (.par .inputScale) 0 0)))
    (.f2 .fsub (.parW (.lin (.par .inputMin) 0 0)) (.parW (.lin (.par .outputMin) 0 0))))
    (.parW (.lin (.par .outputInvScale) 0 0)))))
  val f p a _ := (satU8 (sat16 (f.toZero (f.mul (f.add (f.mul (f.sub (f.ofInt a) (.ofInt 32 (p .inputOffset)))
    (.ofInt 32 (p .inputScale))) (f.sub (.ofInt 32 (p .inputMin)) (.ofInt 32 (p .outputMin))))
    (.ofInt 32 (p .outputInvScale)))))).zeroExtend 32

theorem mm32_all : ((List.range 16).all fun r => (code32 mm32Prog r).any fun p =>
    mmKind.progOk r p && mmKind.initOk r p.init) = true := by decide +kernel

theorem qz32_all : ((List.range 16).all fun r => (code32 qz32Prog r).any fun p =>
    qzKind.progOk r p && qzKind.initOk r p.init) = true := by decide +kernel

theorem rq32_all : ((List.range 16).all fun r => (code32 rq32Prog r).any fun p =>
    rq32Kind.progOk r p && rq32Kind.initOk r p.init) = true := by decide +kernel

theorem dq32_all : ((List.range 16).all fun r => (code32 dq32Prog r).any fun p =>
    dqKind.progOk r p && dqKind.initOk r p.init) = true := by decide +kernel

theorem ba32_all : ((List.range 16).all fun r => (codeRows32 ba32Prog r).any fun p =>
    baInitOk p.init && baRowOk r p.row) = true := by decide +kernel

end Gemmlowp.MetaAsm
