import Verif.BenchProof
/-!
# What is outside the operands does not matter

A kernel that stays within a part of the buffers does the same whatever is after this part.
-/
namespace Gemmlowp.Bench

/-- The buffers of `m'` are the first parts of those of `m`. -/
structure Mem.Part (m' m : Mem) : Prop where
  acc : m'.acc = m.acc
  lsz : m'.lhs.size ≤ m.lhs.size
  rsz : m'.rhs.size ≤ m.rhs.size
  lget : ∀ i, i < m'.lhs.size → m'.lhs.get i = m.lhs.get i
  rget : ∀ i, i < m'.rhs.size → m'.rhs.get i = m.rhs.get i

section
variable {m' m : Mem} (hP : m'.Part m)
include hP

theorem Mem.Part.terms (x : Nat → DReg) : ∀ l, termsVal m' x l = termsVal m x l
  | [] => rfl
  | t :: l => by
    unfold termsVal
    rw [Mem.Part.terms x l]
    cases t with
    | acc k => simp only [Term.val, hP.acc]
    | src s => rfl
    | mul s t => rfl

theorem Mem.Part.writes (x0 : Nat → DReg) : ∀ os x, Bench.writes m' x0 os x = Bench.writes m x0 os x
  | [], _ => rfl
  | o :: os, x => by
    unfold Bench.writes
    have : o.val m' x0 = o.val m x0 := by
      unfold Out.val
      simp only [hP.terms]
    rw [this, Mem.Part.writes x0 os]

theorem Mem.Part.step {i : Ins} {s : St} (h : (Bench.step m' i s).ok = true) : Bench.step m i s = Bench.step m' i s := by
  have hl := hP.lsz
  have hr := hP.rsz
  cases i with
  | zero d => rfl
  | op outs => unfold Bench.step; dsimp only; rw [hP.writes]
  | adv p n => cases p <;> rfl
  | ld p off d =>
    cases p <;> (
      unfold Bench.step at h ⊢
      dsimp only at h ⊢
      rw [Bool.and_eq_true, decide_eq_true_eq] at h
      obtain ⟨h1, h2⟩ := h
      rw [decide_eq_true (by omega), decide_eq_true h2]
      congr 2
      funext j
      by_cases hj : j < 8
      · rw [if_pos hj, if_pos hj]
        first
          | rw [hP.lget _ (by omega)]
          | rw [hP.rget _ (by omega)]
      · rw [if_neg hj, if_neg hj])
  | ldb p off d =>
    cases p <;> (
      unfold Bench.step at h ⊢
      dsimp only at h ⊢
      rw [Bool.and_eq_true, decide_eq_true_eq] at h
      obtain ⟨h1, h2⟩ := h
      rw [decide_eq_true (by omega), decide_eq_true h2]
      congr 2
      funext j
      by_cases hj : j = 0
      · rw [if_pos hj, if_pos hj]
        first
          | rw [hP.lget _ (by omega)]
          | rw [hP.rget _ (by omega)]
      · rw [if_neg hj, if_neg hj])

end

theorem step_fault {m : Mem} {i : Ins} {s : St} (h : s.ok = false) : (step m i s).ok = false := by
  cases i with
  | ld p off d => cases p <;> simp [step, h]
  | ldb p off d => cases p <;> simp [step, h]
  | adv p n => cases p <;> exact h
  | zero d => exact h
  | op outs => exact h

theorem exec_fault {m : Mem} : ∀ (l : List Ins) {s : St}, s.ok = false → (exec m l s).ok = false
  | [], _, h => h
  | _ :: l, _, h => exec_fault l (step_fault h)

theorem exec_ok {m : Mem} {l : List Ins} {s : St} (h : (exec m l s).ok = true) : s.ok = true := by
  by_contra hc
  rw [exec_fault l (Bool.eq_false_iff.2 hc)] at h
  cases h

theorem loopNZ_fault {m : Mem} {k : Nat} {b : List Ins} : ∀ (n : Nat) {s : St}, s.ok = false →
    (loopNZ m k b n s).ok = false := by
  intro n
  induction n using Nat.strong_induction_on with
  | _ n ih =>
    intro s h
    rw [loopNZ]
    split
    · exact h
    · split
      · exact ih _ (by omega) (exec_fault b h)
      · rfl

theorem loopGE_fault {m : Mem} {k : Nat} {b : List Ins} : ∀ (n : Nat) {s : St}, s.ok = false →
    (loopGE m k b n s).2.ok = false := by
  intro n
  induction n using Nat.strong_induction_on with
  | _ n ih =>
    intro s h
    rw [loopGE]
    split
    · exact ih _ (by omega) (exec_fault b h)
    · exact h

section
variable {m' m : Mem} (hP : m'.Part m)
include hP

theorem Mem.Part.exec : ∀ (l : List Ins) {s : St}, (Bench.exec m' l s).ok = true → Bench.exec m l s = Bench.exec m' l s
  | [], _, _ => rfl
  | i :: l, s, h => by
    have h1 : (Bench.exec m' l (Bench.step m' i s)).ok = true := h
    show Bench.exec m l (Bench.step m i s) = Bench.exec m' l (Bench.step m' i s)
    rw [hP.step (exec_ok h1)]
    exact Mem.Part.exec l h1

theorem Mem.Part.loopNZ {k : Nat} {b : List Ins} : ∀ (n : Nat) {s : St}, (Bench.loopNZ m' k b n s).ok = true →
    Bench.loopNZ m k b n s = Bench.loopNZ m' k b n s := by
  intro n
  induction n using Nat.strong_induction_on with
  | _ n ih =>
    intro s h
    rw [Bench.loopNZ] at h ⊢
    rw [Bench.loopNZ.eq_def m']
    by_cases h0 : n = 0
    · rw [if_pos h0, if_pos h0]
    · rw [if_neg h0] at h ⊢
      rw [if_neg h0]
      by_cases hk : 0 < k ∧ k ≤ n
      · rw [if_pos hk] at h ⊢
        rw [if_pos hk]
        have hb : (Bench.exec m' b s).ok = true := by
          by_contra hc
          rw [loopNZ_fault _ (Bool.eq_false_iff.2 hc)] at h
          cases h
        rw [hP.exec b hb]
        exact ih _ (by omega) h
      · rw [if_neg hk, if_neg hk]

theorem Mem.Part.loopGE {k : Nat} {b : List Ins} : ∀ (n : Nat) {s : St}, (Bench.loopGE m' k b n s).2.ok = true →
    Bench.loopGE m k b n s = Bench.loopGE m' k b n s := by
  intro n
  induction n using Nat.strong_induction_on with
  | _ n ih =>
    intro s h
    rw [Bench.loopGE] at h ⊢
    rw [Bench.loopGE.eq_def m']
    by_cases hk : 0 < k ∧ k ≤ n
    · rw [if_pos hk] at h ⊢
      rw [if_pos hk]
      have hb : (Bench.exec m' b s).ok = true := by
        by_contra hc
        rw [loopGE_fault _ (Bool.eq_false_iff.2 hc)] at h
        cases h
      rw [hP.exec b hb]
      exact ih _ (by omega) h
    · rw [if_neg hk, if_neg hk]

/-- A kernel that stays within the parts does the same on the whole. -/
theorem Kern.run_part {K : Kern} {depth : Nat} {s : St} (h : (K.run m' depth s).ok = true) :
    K.run m depth s = K.run m' depth s := by
  unfold Kern.run at h ⊢
  by_cases hd : depth < K.preStep
  · rw [if_pos hd] at h
    cases h
  rw [if_neg hd] at h ⊢
  rw [if_neg hd]
  dsimp only at h ⊢
  have h1 := exec_ok h
  have h2 : (K.first m' (depth - K.preStep) (Bench.exec m' K.pre s)).2.ok = true := by
    by_contra hc
    have hf := Bool.eq_false_iff.2 hc
    split at h1
    · rw [loopGE_fault _ hf] at h1; cases h1
    · rw [loopNZ_fault _ hf] at h1; cases h1
  have h3 : (Bench.exec m' K.pre s).ok = true := by
    by_contra hc
    have hf := Bool.eq_false_iff.2 hc
    unfold Kern.first at h2
    split at h2
    · rw [loopGE_fault _ hf] at h2; cases h2
    · exact hc h2
  have e1 : K.first m (depth - K.preStep) (Bench.exec m K.pre s) =
      K.first m' (depth - K.preStep) (Bench.exec m' K.pre s) := by
    rw [hP.exec _ h3]
    unfold Kern.first at h2 ⊢
    split
    · rename_i w hw
      rw [hw] at h2
      exact hP.loopGE _ h2
    · rfl
  rw [e1]
  have e2 : (if K.ge = true then
        (Bench.loopGE m K.step K.body (K.first m' (depth - K.preStep) (Bench.exec m' K.pre s)).1
          (K.first m' (depth - K.preStep) (Bench.exec m' K.pre s)).2).2
      else Bench.loopNZ m K.step K.body (K.first m' (depth - K.preStep) (Bench.exec m' K.pre s)).1
          (K.first m' (depth - K.preStep) (Bench.exec m' K.pre s)).2) =
      (if K.ge = true then
        (Bench.loopGE m' K.step K.body (K.first m' (depth - K.preStep) (Bench.exec m' K.pre s)).1
          (K.first m' (depth - K.preStep) (Bench.exec m' K.pre s)).2).2
      else Bench.loopNZ m' K.step K.body (K.first m' (depth - K.preStep) (Bench.exec m' K.pre s)).1
          (K.first m' (depth - K.preStep) (Bench.exec m' K.pre s)).2) := by
    by_cases hg : K.ge = true
    · rw [if_pos hg] at h1 ⊢
      rw [if_pos hg, hP.loopGE _ h1]
    · rw [if_neg hg] at h1 ⊢
      rw [if_neg hg, hP.loopNZ _ h1]
  rw [e2]
  exact hP.exec _ h

end

/-- The first `n` bytes of a buffer. -/
def firstBytes (b : Buf UInt8) (n : Nat) : Buf UInt8 := ⟨n, fun i => if i < n then b.get i else 0⟩

theorem part_first {m : Mem} {a b : Nat} (ha : a ≤ m.lhs.size) (hb : b ≤ m.rhs.size) :
    Mem.Part ⟨firstBytes m.lhs a, firstBytes m.rhs b, m.acc⟩ m :=
  ⟨rfl, ha, hb, fun _ hi => if_pos hi, fun _ hi => if_pos hi⟩

theorem kval_zero (f : SideFormat) : f.kval 0 = 0 := by
  unfold SideFormat.kval
  cases f.scalar <;> rfl

/-- The coefficients are in the first part. -/
theorem runCoeff_first {f : SideFormat} {reg : Nat} (hf : f.WF reg) {b : Buf UInt8} {n rd r d : Nat}
    (hn : f.kw * rd ≤ n) (hb : n ≤ b.size) (hr : r < f.kw) (hd : f.cd ∣ rd) (hdr : d < rd) :
    runCoeff f (firstBytes b n) 0 r d = runCoeff f b 0 r d := by
  have h1 : d / f.cd * f.cd + f.cd ≤ rd := by
    obtain ⟨t, rfl⟩ := hd
    have h2 : d / f.cd < t := Nat.div_lt_of_lt_mul hdr
    have := Nat.mul_le_mul_left f.cd h2
    rw [Nat.succ_eq_add_one, Nat.mul_add, Nat.mul_one, Nat.mul_comm] at this
    exact this
  have hwc : r / f.cw < f.cells := Nat.div_lt_of_lt_mul hr
  obtain ⟨v, e1, e2⟩ := run_read (b := b) (pos := 0) hf (Nat.mod_lt r hf.cw_pos) hwc
    (Nat.mod_lt d hf.cd_pos) h1 (by omega)
  obtain ⟨w, e3, e4⟩ := run_read (b := firstBytes b n) (pos := 0) hf (Nat.mod_lt r hf.cw_pos) hwc
    (Nat.mod_lt d hf.cd_pos) h1 (by show 0 + _ ≤ n; omega)
  rw [Nat.mod_add_div', Nat.mod_add_div'] at e2 e4
  rw [← e2, ← e4]
  unfold Buf.read at e1 e3
  split at e3
  · rename_i hlt
    rw [if_pos (Nat.lt_of_lt_of_le hlt hb)] at e1
    cases e1; cases e3
    exact congrArg _ (if_pos hlt)
  · cases e3

end Gemmlowp.Bench
