import Verif.MetaArmProof
/-!
# Accesses of the generated 32-bit ARM packing code that fault
-/
namespace Gemmlowp.MetaAsm

open Vec (VReg)

/-- Among the aligned accesses is one at a multiple of `g` after the register `.out`, and it asks for a multiple of `g`. -/
def hasAl (g : Nat) (l : List Ins) : Bool :=
  (exec sym l symInit).al.any fun a => match a.1 with
    | .lin r 0 o => decide (r = .out ∧ a.2 % g = 0 ∧ o % (g : Int) = 0)
    | _ => false

/-- Such an access is executed: by the loop, which runs at least once unless it can be skipped, or after it. -/
def faults (g : Nat) (p : Prog) : Bool :=
  keeps [(.out, g)] p.init && keeps [(.out, g)] p.body && ((!p.skip && hasAl g p.body) || hasAl g p.tail)

theorem keeps_mod {g : Nat} {l : List Ins} (h : keeps [(.out, g)] l = true) (f : FloatOps) (mem : Int → BitVec 8)
    (s : St VReg Int) : (exec (machine f mem) l s).x .out % (g : Int) = s.x .out % (g : Int) := by
  unfold keeps at h
  have := (List.all_eq_true.1 h) (.out, g) (by simp)
  rw [exec_sym]
  show ((MetaAsm.exec sym l symInit).x .out).eval s.x % _ = _
  dsimp only at this
  split at this
  · rename_i r o he
    rw [decide_eq_true_eq] at this
    obtain ⟨rfl, ho⟩ := this
    rw [he]
    simp only [XE.eval]
    obtain ⟨c, rfl⟩ := Int.dvd_of_emod_eq_zero ho
    simp
  · exact absurd this (by simp)

theorem al_stays {l : List Ins} (f : FloatOps) (mem : Int → BitVec 8) {s : St VReg Int} (h0 : alignedIn s.al = false) :
    alignedIn (exec (machine f mem) l s).al = false := by
  rw [exec_sym]
  show alignedIn ((MetaAsm.exec sym l symInit).al.map _ ++ s.al) = false
  unfold alignedIn at h0 ⊢
  rw [List.all_append, h0, Bool.and_false]

theorem al_fails {g : Nat} {l : List Ins} (h : hasAl g l = true) (f : FloatOps) (mem : Int → BitVec 8)
    {s : St VReg Int} (hs : s.x .out % (g : Int) ≠ 0) : alignedIn (exec (machine f mem) l s).al = false := by
  rw [exec_sym]
  show alignedIn ((MetaAsm.exec sym l symInit).al.map _ ++ s.al) = false
  unfold hasAl at h
  rw [List.any_eq_true] at h
  obtain ⟨a, ha, h⟩ := h
  rw [← Bool.not_eq_true]
  intro hall
  unfold alignedIn at hall
  rw [List.all_append, Bool.and_eq_true, List.all_eq_true] at hall
  have h1 := hall.1 _ (List.mem_map.2 ⟨a, ha, rfl⟩)
  simp only [decide_eq_true_eq] at h1
  split at h
  · rename_i r o he
    rw [decide_eq_true_eq] at h
    obtain ⟨rfl, h2, h3⟩ := h
    rw [he] at h1
    simp only [XE.eval] at h1
    apply hs
    apply Int.emod_eq_zero_of_dvd
    have d1 : (g : Int) ∣ (a.2 : Int) := by exact_mod_cast Nat.dvd_of_mod_eq_zero h2
    have d2 := Int.dvd_trans d1 (Int.dvd_of_emod_eq_zero h1)
    have d3 := Int.dvd_of_emod_eq_zero h3
    have := Int.dvd_sub d2 d3
    simpa using this
  · exact absurd h (by simp)

theorem faults_loop {g : Nat} {body : List Ins} {c : Cond} (hk : keeps [(.out, g)] body = true) (f : FloatOps)
    (mem : Int → BitVec 8) : ∀ (fuel : Nat) (s t : St VReg Int), loop (machine f mem) body c fuel s = some t →
    t.x .out % (g : Int) = s.x .out % (g : Int) ∧
      (alignedIn s.al = false ∨ (hasAl g body = true ∧ s.x .out % (g : Int) ≠ 0) → alignedIn t.al = false) := by
  intro fuel
  induction fuel with
  | zero => intro s t h; cases h
  | succ fuel ih =>
    intro s t hl
    have h1 := keeps_mod hk f mem s
    have h2 : alignedIn s.al = false ∨ (hasAl g body = true ∧ s.x .out % (g : Int) ≠ 0) →
        alignedIn (exec (machine f mem) body s).al = false := by
      rintro (h | ⟨h, h'⟩)
      · exact al_stays f mem h
      · exact al_fails h f mem h'
    rw [loop] at hl
    split at hl
    · obtain ⟨i1, i2⟩ := ih _ t hl
      exact ⟨i1.trans h1, fun h => i2 (.inl (h2 h))⟩
    · cases hl; exact ⟨h1, h2⟩

/-- The code makes an access that is not aligned. -/
theorem faults_run {g : Nat} {p : Prog} (h : faults g p = true) (f : FloatOps) (mem : Int → BitVec 8)
    {s t : St VReg Int} (hs : s.x .out % (g : Int) ≠ 0) (hr : p.run (machine f mem) s = some t) :
    alignedIn t.al = false := by
  unfold faults at h
  simp only [Bool.and_eq_true, Bool.or_eq_true, Bool.not_eq_true'] at h
  obtain ⟨⟨k1, k2⟩, h⟩ := h
  have h1 := keeps_mod k1 f mem s
  unfold Prog.run at hr
  simp only at hr
  split at hr
  · rename_i hc
    cases hr
    rcases h with ⟨h, -⟩ | h
    · rw [h] at hc; simp at hc
    · exact al_fails h f mem (by rw [h1]; exact hs)
  · rw [Option.map_eq_some_iff] at hr
    obtain ⟨u, hu, rfl⟩ := hr
    obtain ⟨h3, h4⟩ := faults_loop k2 f mem _ _ _ hu
    rcases h with ⟨-, h⟩ | h
    · exact al_stays f mem (h4 (.inr ⟨h, by rw [h1]; exact hs⟩))
    · exact al_fails h f mem (by rw [h3, h1]; exact hs)

theorem rows32_fault : ((List.range 8).all fun n => (List.range 8).all fun L =>
    (row32Prog (n + 1) L).any fun p => faults (Nat.gcd 32 (8 * (n + 1))) p.code) = true := by
  decide +kernel

theorem cols32_fault : ((List.range 8).all fun n => (List.range 8).all fun L =>
    (col32Prog (n + 1) L).any fun p => faults (Nat.gcd 32 (8 * (n + 1))) p.code) = true := by
  decide +kernel

end Gemmlowp.MetaAsm
