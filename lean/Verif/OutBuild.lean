import Verif.OutSimdSpec
/-!
# Which code unpacks and evaluates the output stages

internal/simd_wrappers.h and internal/output.h include at their ends the specialisations for vector
registers of a build; without them everything is done with scalars.
-/
namespace Gemmlowp

/-- internal/simd_wrappers.h:661-667, internal/output.h:571-577: no specialisations, or those of one set
of instructions.  An AVX2 build has none: `GEMMLOWP_AVX2` excludes `GEMMLOWP_SSE4`
(internal/detect_platform.h:117-123). -/
inductive OutBuild
  | scalar
  | vec (A : OutSimd.VArch)

/-- What is done with register blocks in the build. -/
def OutBuild.ops (b : OutBuild) (m : OvMode) (p : Pipeline) : BlockOps Int :=
  match b with
  | .scalar => scalarOps (p.eval m)
  | .vec A => OutSimd.vecOps A p

/-- The pipeline compiles in the build. -/
def OutBuild.Supports (b : OutBuild) (p : Pipeline) : Prop :=
  match b with
  | .scalar => True
  | .vec A => p.Supports A

/-- The accumulator `x` at `(r, c)` meets nothing on which the code of the build differs from the scalar
code. -/
def OutBuild.Safe (b : OutBuild) (m : OvMode) (p : Pipeline) (r c : Nat) (x : BitVec 32) : Prop :=
  match b with
  | .scalar => True
  | .vec A => p.Safe A m r c x

/-- The pipeline compiles, and no accumulator of a matrix of `rows × cols` meets a difference between the code of
the build and the scalar code. -/
structure OutBuild.Agrees (b : OutBuild) (m : OvMode) (p : Pipeline) (rows cols : Nat)
    (acc : Nat → Nat → BitVec 32) : Prop where
  supports : b.Supports p
  safe : ∀ r j, r < rows → j < cols → b.Safe m p r j (acc r j)

end Gemmlowp
