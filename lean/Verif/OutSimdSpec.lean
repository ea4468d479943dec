import Verif.OutStore
import Verif.OutputProof
/-!
# Where the vector code of the output stages agrees with the scalar code

`Stage.Safe` lists the accumulators for which a stage computes the same in vector registers as in
scalars.  Outside of it the code really differs (`PropsOutSimd.lean`).  `Supports` lists the pipelines that
compile in a vector build.
-/
namespace Gemmlowp

open OutSimd

/-- The product of `SaturatingRoundingDoublingHighMul` is right: all but the square of the least number
under SSE (fixedpoint/fixedpoint_sse.h:321-344). -/
def MulSafe (A : VArch) (a b : BitVec 32) : Prop :=
  A = .sse → ¬ (a.toInt = -2 ^ 31 ∧ b.toInt = -2 ^ 31)

/-- The left shift does not overflow. -/
def ShlSafe (a : BitVec 32) (k : Int) : Prop :=
  -2 ^ 31 ≤ a.toInt * 2 ^ k.toNat ∧ a.toInt * 2 ^ k.toNat < 2 ^ 31

/-- The value `x` at position `(r, c)` meets nothing on which scalar and vector code of the stage
differ. -/
def Stage.Safe (A : VArch) (s : Stage) (r c : Nat) (x : BitVec 32) : Prop :=
  match s with
  | .byFixedPoint mult _ _ => MulSafe A x mult
  | .byExponent mult e _ =>
    ShlSafe x (max 0 e.toInt) ∧ MulSafe A (x <<< (max 0 e.toInt).toNat) mult
  | .byExponentPC sh _ e _ => ∀ v, (e.vec sh).read (posOf sh r c) = .ok v → ShlSafe x (max 0 v.toInt)
  | .tanh p =>
    x.toInt ≤ (p.zero - 8 * p.amplitude).toInt ∨ (p.zero + 8 * p.amplitude).toInt ≤ x.toInt ∨
      (MulSafe A (x - p.zero) p.inverseAmplitude ∧
        ShlSafe (Fx.srdhm (x - p.zero) p.inverseAmplitude) (28 - p.inverseNegExponent))
  | _ => True

/-- The same through a list of stages. -/
def safeStages (A : VArch) (m : OvMode) : List Stage → Nat → Nat → BitVec 32 → Prop
  | [], _, _, _ => True
  | s :: rest, r, c, x => s.Safe A r c x ∧ ∀ y, s.scalar m r c x = .ok y → safeStages A m rest r c y

/-- The same for a pipeline. -/
def Pipeline.Safe (A : VArch) (m : OvMode) (p : Pipeline) (r c : Nat) (x : BitVec 32) : Prop :=
  safeStages A m p.stages r c x

/-- The stage compiles: a bias vector that repeats one value has no `BroadcastAdd` for blocks
(simd_wrappers_common_neon_sse.h:194-351), and the per-channel stage needs functions that only
simd_wrappers_neon.h has. -/
def Stage.Supports (A : VArch) : Stage → Prop
  | .bias (.dup _ _ _) => False
  | .byExponentPC _ _ _ _ => A = .neon
  | _ => True

/-- The cast compiles. -/
def Cast.Supports (A : VArch) : Cast → Prop
  | .satInt8 => A = .neon
  | .truncUint8 => A = .msa
  | _ => True

/-- The pipeline compiles. -/
def Pipeline.Supports (A : VArch) (p : Pipeline) : Prop :=
  (∀ s ∈ p.stages, s.Supports A) ∧ Cast.Supports A p.cast

end Gemmlowp
