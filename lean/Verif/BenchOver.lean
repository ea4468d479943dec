import Verif.BenchMem
/-!
# Kernels that read too far

At the last pass through a loop the reads are known exactly (`Kern.body_ok`), so a kernel whose last pass reads past
the end of the buffer does so at every depth.
-/
namespace Gemmlowp.Bench
namespace Kern

/-- What the first part reads is known exactly. -/
theorem pre_ok {K : Kern} (hz : ∀ d r, K.R.v d = some r → r.1 ≤ 0 ∧ 0 ≤ r.2) {m : Mem} (hR : Ranges K m)
    (x : Nat → DReg) : (exec m K.pre ⟨x, 0, 0, true⟩).ok = true ↔ K.S0.hl ≤ m.lhs.size ∧ K.S0.hr ≤ m.rhs.size := by
  let E : Env := ⟨fun i => K.F.lhs.kval (m.lhs.get i), fun i => K.F.rhs.kval (m.rhs.get i), fun _ _ => 0,
    fun k => ((m.acc k).toNat : Int)⟩
  have hE : E.In K.R := ⟨hR.l, hR.r, fun d i r hr => hz d r hr⟩
  have hO : E.Of K.F m 0 0 := ⟨fun i => by rw [Nat.zero_add], fun i => by rw [Nat.zero_add], fun _ => rfl⟩
  have hA0 : Agrees m E 0 0 true ⟨x, 0, 0, true⟩ init :=
    ⟨fun d sv h => (by cases h), rfl, rfl, ⟨fun _ => ⟨rfl, Nat.zero_le _, Nat.zero_le _⟩, fun _ => rfl⟩⟩
  have hA := sym_sound hE hO K.pre hA0
  have := hA.ok
  rw [Nat.zero_add, Nat.zero_add] at this
  exact ⟨fun h => (this.1 h).2, fun h => this.2 ⟨rfl, h⟩⟩

/-- A loop body executed at the head of the loop reads what the check says, exactly. -/
theorem body_ok {K : Kern} {m : Mem} {u : Nat} {s : St} (hH : Head K m u s) (b : List Ins) :
    (exec m b s).ok = true ↔ u * K.gl + (sym K.R b K.T).hl ≤ m.lhs.size ∧
      u * K.gr + (sym K.R b K.T).hr ≤ m.rhs.size := by
  obtain ⟨E, hE, hO, hA, _⟩ := hH.env
  have := (sym_sound hE hO b hA).ok
  exact ⟨fun h => (this.1 h).2, fun h => this.2 ⟨rfl, h⟩⟩

theorem body_fault {K : Kern} {m : Mem} {u : Nat} {s : St} (hH : Head K m u s) {b : List Ins}
    (ho : m.lhs.size < u * K.gl + (sym K.R b K.T).hl) : (exec m b s).ok = false := by
  rw [Bool.eq_false_iff]
  intro h
  have := ((body_ok hH b).1 h).1
  omega

/-- `n + 1` passes, the last of which reads too far. -/
theorem loopNZ_over {K : Kern} (hG : Good K) {m : Mem} : ∀ (n u : Nat) (s : St), Head K m u s →
    Fits K m (u + n + K.cl) → m.lhs.size < (u + n) * K.gl + (sym K.R K.body K.T).hl →
    (loopNZ m K.step K.body ((n + 1) * K.F.kDepth) s).ok = false := by
  have hP := check_parts hG.check
  have hkd := hP.kd
  have hst := hP.step
  have hs : K.step / K.F.kDepth = 1 := by rw [hst, Nat.div_self hkd]
  intro n
  induction n with
  | zero =>
    intro u s h hF ho
    rw [loopNZ, if_neg (by omega), if_pos (by omega)]
    exact loopNZ_fault _ (body_fault h ho)
  | succ n ih =>
    intro u s h hF ho
    have e : (n + 1 + 1) * K.F.kDepth = (n + 1) * K.F.kDepth + K.F.kDepth := by ring
    have e2 : (n + 1 + 1) * K.F.kDepth - K.step = (n + 1) * K.F.kDepth := by rw [hst, e]; omega
    rw [loopNZ, if_neg (by omega), if_pos (by omega), e2]
    have hs1 := head_step hG hP.body h (hF.mono (by rw [hs]; omega))
    rw [hs] at hs1
    exact ih _ _ hs1 (hF.mono (by omega)) (by rw [show u + 1 + n = u + (n + 1) by omega]; exact ho)

/-- Passes of `c` cells, the last of which reads too far if it ends where the operands end. -/
theorem loopGE_over {K : Kern} (hG : Good K) {m : Mem} {b : List Ins} {c : Nat} (hc : 0 < c)
    (hb : K.checkBody b (c * K.F.kDepth) = true) : ∀ (n u : Nat) (s : St), 0 < n → Head K m u s →
    Fits K m (u + n - 1 + K.cl) → (c ≤ u + n → m.lhs.size < (u + n - c) * K.gl + (sym K.R b K.T).hl) →
    (loopGE m (c * K.F.kDepth) b (n * K.F.kDepth) s).2.ok = false ∨
    ∃ n' u' s', loopGE m (c * K.F.kDepth) b (n * K.F.kDepth) s = (n' * K.F.kDepth, s') ∧ u' + n' = u + n ∧
      0 < n' ∧ n' < c ∧ Head K m u' s' := by
  have hP := check_parts hG.check
  have hkd := hP.kd
  have hs : c * K.F.kDepth / K.F.kDepth = c := Nat.mul_div_cancel _ hkd
  have hle : ∀ n, c ≤ n ↔ c * K.F.kDepth ≤ n * K.F.kDepth := fun n => (Nat.mul_le_mul_right_iff hkd).symm
  have hcp : 0 < c * K.F.kDepth := Nat.mul_pos hc hkd
  intro n
  induction n using Nat.strong_induction_on with
  | _ n ih =>
    intro u s h0 h hF ho
    rw [loopGE]
    by_cases hcn : c ≤ n
    · rw [if_pos ⟨hcp, (hle n).1 hcn⟩, ← Nat.sub_mul]
      by_cases he : n = c
      · left
        apply loopGE_fault
        apply body_fault h
        have := ho (by omega)
        rw [he, Nat.add_sub_cancel] at this
        exact this
      · have hs1 := head_step hG hb h (hF.mono (by rw [hs]; omega))
        rw [hs] at hs1
        have := ih (n - c) (by omega) (u + c) _ (by omega) hs1 (hF.mono (by omega)) (by
          rw [show u + c + (n - c) = u + n by omega]; exact ho)
        rw [show u + c + (n - c) = u + n by omega] at this
        exact this
    · rw [if_neg (by rw [← hle]; omega)]
      exact Or.inr ⟨n, u, s, rfl, rfl, h0, by omega, h⟩

end Kern
end Gemmlowp.Bench
