import Verif.MetaAsmSym
/-!
# Aligned accesses of the generated 32-bit ARM code

`[p:64]` and the like fault if the address is not a multiple of 8 (16, 32) bytes.  Here: such accesses
are aligned if some registers are multiples of something at the start.
-/
namespace Gemmlowp.MetaAsm

open Vec (VReg)

/-- The registers `x.1` stay multiples of `x.2`. -/
def keeps (L : List (X × Nat)) (l : List Ins) : Bool :=
  L.all fun x => match (exec sym l symInit).x x.1 with
    | .lin r 0 o => decide (r = x.1 ∧ o % (x.2 : Int) = 0)
    | _ => false

/-- The aligned accesses are aligned if the registers `x.1` are multiples of `x.2`. -/
def alIns (L : List (X × Nat)) (l : List Ins) : Bool :=
  (exec sym l symInit).al.all fun a => match a.1 with
    | .lin r 0 o => L.any fun x => decide (x.1 = r ∧ x.2 % a.2 = 0 ∧ o % (a.2 : Int) = 0)
    | _ => false

def alOk (L : List (X × Nat)) (p : Prog) : Bool :=
  keeps L p.init && keeps L p.body && alIns L p.init && alIns L p.body && alIns L p.tail

/-- The registers are such multiples. -/
def Multiples (L : List (X × Nat)) (s : St VReg Int) : Prop := ∀ x, x ∈ L → s.x x.1 % (x.2 : Int) = 0

theorem mod_lin {o g : Int} {rho : X → Int} {r : X} (ha : rho r % g = 0) (ho : o % g = 0) :
    (XE.lin r 0 o).eval rho % g = 0 := by
  show (_ : Int) % g = 0
  simp only [XE.eval]
  have h1 := Int.dvd_of_emod_eq_zero ha
  have h2 := Int.dvd_of_emod_eq_zero ho
  apply Int.emod_eq_zero_of_dvd
  first
  | exact Int.dvd_add h1 h2
  | (simp; exact Int.dvd_add h1 h2)

theorem Multiples.exec {L : List (X × Nat)} {l : List Ins} (h : keeps L l = true) (f : FloatOps) (mem : Int → BitVec 8)
    {s : St VReg Int} (hs : Multiples L s) : Multiples L (exec (machine f mem) l s) := by
  intro x hx
  unfold keeps at h
  have := (List.all_eq_true.1 h) x hx
  rw [exec_sym]
  show ((MetaAsm.exec sym l symInit).x x.1).eval s.x % _ = 0
  split at this
  · rename_i r o he
    rw [decide_eq_true_eq] at this
    obtain ⟨rfl, ho⟩ := this
    rw [he]
    have h1 := hs x hx
    exact mod_lin h1 ho
  · exact absurd this (by simp)

theorem aligned_exec {L : List (X × Nat)} {l : List Ins} (h : alIns L l = true) (f : FloatOps) (mem : Int → BitVec 8)
    {s : St VReg Int} (hs : Multiples L s) (h0 : alignedIn s.al = true) :
    alignedIn (exec (machine f mem) l s).al = true := by
  rw [exec_sym]
  show alignedIn ((MetaAsm.exec sym l symInit).al.map _ ++ s.al) = true
  unfold alignedIn at h0 ⊢
  rw [List.all_append, Bool.and_eq_true]
  refine ⟨?_, h0⟩
  unfold alIns at h
  simp only [List.all_eq_true, List.mem_map] at h ⊢
  rintro _ ⟨a, ha, rfl⟩
  have := h a ha
  dsimp only
  rw [decide_eq_true_eq]
  split at this
  · rename_i r o he
    simp only [List.any_eq_true, decide_eq_true_eq] at this
    obtain ⟨x, hx, rfl, h1, h2⟩ := this
    have h3 := hs x hx
    rw [he]
    have h4 : s.x x.1 % (a.2 : Int) = 0 := by
      obtain ⟨c, hc⟩ := Nat.dvd_of_mod_eq_zero h1
      obtain ⟨d, hd⟩ := Int.dvd_of_emod_eq_zero h3
      rw [hd, hc]
      push_cast
      rw [Int.mul_assoc]
      exact Int.mul_emod_right _ _
    exact mod_lin h4 h2
  · exact absurd this (by simp)

theorem aligned_loop {L : List (X × Nat)} {body : List Ins} {c : Cond} (h : alIns L body = true)
    (hk : keeps L body = true) (f : FloatOps) (mem : Int → BitVec 8) : ∀ (fuel : Nat) (s t : St VReg Int),
    Multiples L s → alignedIn s.al = true → loop (machine f mem) body c fuel s = some t →
    Multiples L t ∧ alignedIn t.al = true := by
  intro fuel
  induction fuel with
  | zero => intro s t _ _ h; cases h
  | succ fuel ih =>
    intro s t hs h0 hl
    have h1 := hs.exec hk f mem
    have h2 := aligned_exec h f mem hs h0
    rw [loop] at hl
    split at hl
    · exact ih _ t h1 h2 hl
    · cases hl; exact ⟨h1, h2⟩

/-- All aligned accesses of the code are aligned. -/
theorem aligned_run {L : List (X × Nat)} {p : Prog} (h : alOk L p = true) (f : FloatOps) (mem : Int → BitVec 8)
    {s t : St VReg Int} (hs : Multiples L s) (h0 : alignedIn s.al = true) (hr : p.run (machine f mem) s = some t) :
    alignedIn t.al = true := by
  unfold alOk at h
  simp only [Bool.and_eq_true] at h
  obtain ⟨⟨⟨⟨k1, k2⟩, a1⟩, a2⟩, a3⟩ := h
  have h1 := hs.exec k1 f mem
  have h2 := aligned_exec a1 f mem hs h0
  unfold Prog.run at hr
  simp only at hr
  split at hr
  · cases hr
    exact aligned_exec a3 f mem h1 h2
  · rw [Option.map_eq_some_iff] at hr
    obtain ⟨u, hu, rfl⟩ := hr
    obtain ⟨h3, h4⟩ := aligned_loop a2 k2 f mem _ _ _ h1 h2 hu
    exact aligned_exec a3 f mem h3 h4

end Gemmlowp.MetaAsm
