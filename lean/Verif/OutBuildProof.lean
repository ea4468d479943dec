import Verif.OutBuild
import Verif.OutVecProof
import Mathlib.Tactic.NormNum
/-!
# Every build unpacks as the scalar code does
-/
namespace Gemmlowp

theorem OutBuild.ok {b : OutBuild} {m : OvMode} {p : Pipeline} (h : b.Supports p) :
    OutOk (b.ops m p) m (fun r c v w => p.scalar m r c v = .ok w ∧ b.Safe m p r c v) := by
  cases b with
  | scalar =>
    intro x rows cols A SL SR LO RO val hm hh hv
    exact scalarOps_ok (pipeline_ok m p) x rows cols A SL SR LO RO val hm hh fun r c hr hc => (hv r c hr hc).1
  | vec A => exact OutSimd.vecOps_ok h

theorem stage_safe_transpose (A : OutSimd.VArch) (s : Stage) (r c : Nat) (x : BitVec 32) :
    s.transpose.Safe A r c x ↔ s.Safe A c r x := by
  cases s with
  | byExponentPC sh mu e o =>
    simp only [Stage.transpose, Stage.Safe, posOf_transpose]; rfl
  | _ => rfl

theorem pipeline_safe_transpose (A : OutSimd.VArch) (m : OvMode) (p : Pipeline) (r c : Nat) (x : BitVec 32) :
    p.transpose.Safe A m r c x ↔ p.Safe A m c r x := by
  have key : ∀ (l : List Stage) x, safeStages A m (l.map Stage.transpose) r c x ↔ safeStages A m l c r x := by
    intro l
    induction l with
    | nil => intro x; rfl
    | cons s l ih =>
      intro x
      simp only [List.map_cons, safeStages, stage_transpose, stage_safe_transpose, ih]
  exact key _ _

theorem stage_supports_transpose (A : OutSimd.VArch) (s : Stage) :
    s.transpose.Supports A ↔ s.Supports A := by
  cases s with
  | bias v => cases v <;> rfl
  | _ => rfl

theorem pipeline_supports_transpose (A : OutSimd.VArch) (p : Pipeline) :
    p.transpose.Supports A ↔ p.Supports A := by
  unfold Pipeline.Supports Pipeline.transpose
  simp only [List.mem_map, forall_exists_index, and_imp, forall_apply_eq_imp_iff₂, stage_supports_transpose]

theorem OutBuild.Agrees.transpose {b : OutBuild} {m : OvMode} {p : Pipeline} {rows cols : Nat}
    {acc : Nat → Nat → BitVec 32} (h : b.Agrees m p rows cols acc) :
    b.Agrees m p.transpose cols rows (fun r j => acc j r) := by
  cases b with
  | scalar => exact ⟨trivial, fun _ _ _ _ => trivial⟩
  | vec A =>
    exact ⟨(pipeline_supports_transpose A p).2 h.1,
      fun r j hr hj => (pipeline_safe_transpose A m p r j _).2 (h.2 j r hj hr)⟩

theorem OutBuild.Agrees.congr {b : OutBuild} {m : OvMode} {p : Pipeline} {rows cols : Nat}
    {acc acc' : Nat → Nat → BitVec 32} (h : b.Agrees m p rows cols acc)
    (e : ∀ r j, r < rows → j < cols → acc' r j = acc r j) : b.Agrees m p rows cols acc' :=
  ⟨h.1, fun r j hr hj => by rw [e r j hr hj]; exact h.2 r j hr hj⟩

/-- Stages that are computed alike on every accumulator, in every build. -/
def Stage.Plain : Stage → Prop
  | .quantizeDown _ _ _ | .quantizeDownPC _ _ _ _ | .bias (.map _ _ _ _) | .clamp _ _ => True
  | .byFixedPoint mult _ _ => mult.toInt ≠ -2 ^ 31
  | .byExponent mult e _ => mult.toInt ≠ -2 ^ 31 ∧ e.toInt ≤ 0
  | _ => False

/-- Pipelines of such stages, with a cast that compiles in every build. -/
def Pipeline.Plain (p : Pipeline) : Prop :=
  (∀ s ∈ p.stages, s.Plain) ∧ (p.cast = .none ∨ p.cast = .satUint8 ∨ p.cast = .satInt16)

theorem Pipeline.Plain.agrees {p : Pipeline} (h : p.Plain) (b : OutBuild) (m : OvMode) (rows cols : Nat)
    (acc : Nat → Nat → BitVec 32) : b.Agrees m p rows cols acc := by
  cases b with
  | scalar => exact ⟨trivial, fun _ _ _ _ => trivial⟩
  | vec A =>
    refine ⟨⟨fun s hs => ?_, ?_⟩, fun r j _ _ => ?_⟩
    · have := h.1 s hs
      cases s with
      | bias v => cases v <;> first | trivial | exact this.elim
      | byExponentPC => exact False.elim this
      | _ => trivial
    · rcases h.2 with e | e | e <;> rw [e] <;> trivial
    · have key : ∀ (l : List Stage) x, (∀ s ∈ l, s.Plain) → safeStages A m l r j x := by
        intro l
        induction l with
        | nil => intro x _; trivial
        | cons s l ih =>
          intro x hl
          refine ⟨?_, fun y _ => ih y fun s hs => hl s (List.mem_cons_of_mem _ hs)⟩
          have := hl s (List.mem_cons_self ..)
          cases s with
          | byFixedPoint mult sh o => intro _ hh; exact this hh.2
          | byExponent mult e o =>
            refine ⟨?_, fun _ hh => this.1 hh.2⟩
            have h1 := x.toInt_lt
            have h2 := x.le_toInt
            rw [show max 0 e.toInt = 0 from max_eq_left this.2]
            unfold ShlSafe
            norm_num at h1 h2 ⊢
            omega
          | byExponentPC | tanh => exact False.elim this
          | _ => trivial
      exact key _ _ h.1

end Gemmlowp
