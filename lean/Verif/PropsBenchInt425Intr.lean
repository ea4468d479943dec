import Verif.BenchProgH
import Verif.BenchGrow
import Verif.PropsBench
/-!
# C76: the kernel for 4.25-bit operands that is written with intrinsics
-/
namespace Gemmlowp.Bench

/-- The kernel with its loads from and stores to the accumulators. -/
def intr425 (x : Nat → DReg) (lhs rhs : Buf UInt8) (accum : Buf (BitVec 32)) (depth : Nat) : M (Buf (BitVec 32)) :=
  let s := intr425Run ⟨lhs, rhs, accum.get⟩ depth ⟨x, 0, 0, true⟩
  if s.ok = true then .ok ⟨accum.size, fun k => if k < 8 then intr425Word s k else accum.get k⟩ else .error .oob

/-! For the proof: format and registers of the accumulators. -/

def intr425K : Kern where
  F := intr425F
  lr := (-7, 7)
  rr := (-9, 9)
  pre := intr425Zero ++ intr425Clear
  preStep := 0
  wide := none
  body := intr425Pass
  step := 32
  ge := true
  last := intr425Flush ++ intr425Sum
  outs := outsFrom 80 8
  accs := accsFrom 16 8 ++ (List.range 16).map (fun i => ⟨60 + i, 2, none⟩)
  keep := []
  c0 := 0
  cl := 0
  padL := 0
  padR := 0

/-- After `j` passes of the inner loop the 16-bit accumulators are at most `252 * j`. -/
def intr425R (j : Nat) : Rng :=
  ⟨-7, 7, -9, 9, fun d => if 60 ≤ d ∧ d < 76 then some (-(252 * (j : Int)), 252 * (j : Int)) else none⟩

/-- What will be stored. -/
def intr425Fin (k : Nat) : Poly :=
  (lanePoly (sym (intr425R 16) (intr425Flush ++ intr425Sum) intr425K.T).x (2 * (80 + k / 4) + k % 4 / 2) 4 (k % 2)).getD []

abbrev Intr425Head (j : Nat) := Kern.HeadR intr425K (intr425R j) intr425Fin

theorem intr425R_zero (j d : Nat) (r : Int × Int) (h : (intr425R j).v d = some r) : r.1 ≤ 0 ∧ 0 ≤ r.2 := by
  unfold intr425R at h
  dsimp only at h
  split at h
  · cases h; dsimp only; omega
  · cases h

theorem intr425R_mono {i j : Nat} (h : i ≤ j) {E : Env} (hE : E.In (intr425R i)) : E.In (intr425R j) := by
  refine ⟨hE.l, hE.r, fun d k r hr => ?_⟩
  unfold intr425R at hr
  dsimp only at hr
  split at hr
  · rename_i hd
    cases hr
    have := hE.v d k (-(252 * (i : Int)), 252 * (i : Int)) (by unfold intr425R; dsimp only; rw [if_pos hd])
    dsimp only at this ⊢
    omega
  · cases hr

theorem intr425R_next (j d : Nat) (r : Int × Int) (h : (intr425R (j + 1)).v d = some r) :
    ((intr425R 15).v d).isSome = true ∧ ∃ r0, (intr425R j).v d = some r0 ∧ r.1 ≤ r0.1 - 252 ∧ r0.2 + 252 ≤ r.2 := by
  unfold intr425R at h ⊢
  dsimp only at h ⊢
  split at h
  · rename_i hd
    cases h
    rw [if_pos hd, if_pos hd]
    exact ⟨rfl, _, rfl, by dsimp only; omega, by dsimp only; omega⟩
  · cases h

theorem intr425_start : intr425K.growOk (sym (intr425R 0) (intr425Zero ++ intr425Clear) Kern.init) 0 intr425Fin
      (fun k => [.a k]) = true ∧
    intr425K.rangesOk (intr425R 0) (intr425R 0) (sym (intr425R 0) (intr425Zero ++ intr425Clear) Kern.init) = true := by
  decide +kernel

theorem intr425_pass : intr425K.growOk (sym (intr425R 15) intr425Pass intr425K.T) 1 intr425Fin intr425Fin = true ∧
    intr425K.changesOk (intr425R 15) 252 (sym (intr425R 15) intr425Pass intr425K.T) = true := by decide +kernel

theorem intr425_again : intr425K.growOk (sym (intr425R 16) (intr425Flush ++ intr425Clear) intr425K.T) 0 intr425Fin
      intr425Fin = true ∧
    intr425K.rangesOk (intr425R 16) (intr425R 0) (sym (intr425R 16) (intr425Flush ++ intr425Clear) intr425K.T) = true := by
  decide +kernel

theorem intr425_last : (sym (intr425R 16) (intr425Flush ++ intr425Sum) intr425K.T).hl = 0 ∧
    (sym (intr425R 16) (intr425Flush ++ intr425Sum) intr425K.T).hr = 0 ∧
    ∀ k < 8, (lanePoly (sym (intr425R 16) (intr425Flush ++ intr425Sum) intr425K.T).x
      (2 * (80 + k / 4) + k % 4 / 2) 4 (k % 2)).isSome = true := by decide +kernel

theorem exec_append (m : Mem) (a b : List Ins) (s : St) : exec m (a ++ b) s = exec m b (exec m a s) := by
  unfold exec
  rw [List.foldl_append]

theorem intr425_gl : intr425K.gl = 128 := rfl
theorem intr425_gr : intr425K.gr = 64 := rfl

/-- The memory has `t` cells. -/
structure Mem.Cells425 (m : Mem) (t : Nat) : Prop where
  lhs : t * 128 ≤ m.lhs.size
  rhs : t * 64 ≤ m.rhs.size

theorem inner_head {m : Mem} {T : Nat} (hm : m.Cells425 T) : ∀ (k j t u : Nat) (s : St), Intr425Head j m u s →
    j + k ≤ 16 → u + t ≤ T → ∃ s', intr425Inner m k (32 * t) s = (s', 32 * (t - min k t)) ∧
      Intr425Head (j + min k t) m (u + min k t) s'
  | 0, j, t, u, s, h, _, _ => ⟨s, by unfold intr425Inner; simp, by simpa using h⟩
  | k + 1, j, t, u, s, h, hj, ht => by
    unfold intr425Inner
    rcases Nat.eq_zero_or_pos t with h0 | h0
    · subst h0
      rw [if_neg (by omega)]
      exact ⟨s, rfl, by simpa using h⟩
    · rw [if_pos (by omega), show 32 * t - 32 = 32 * (t - 1) by omega]
      have a1 := hm.lhs
      have a2 := hm.rhs
      have h1 := Kern.headR_grow (by decide) rfl rfl rfl (intr425R_zero (j + 1))
        (fun E => intr425R_mono (show j ≤ 15 by omega)) rfl (intr425R_next j) intr425_pass.1 intr425_pass.2 h
        (by rw [intr425_gl]; omega) (by rw [intr425_gr]; omega)
      obtain ⟨s', e, h2⟩ := inner_head hm k (j + 1) (t - 1) (u + 1) _ h1 (by omega) (by omega)
      refine ⟨s', ?_, ?_⟩
      · rw [e]; congr 2; omega
      · rw [show j + min (k + 1) t = j + 1 + min k (t - 1) by omega,
          show u + min (k + 1) t = u + 1 + min k (t - 1) by omega]
        exact h2

theorem outer_head {m : Mem} {T : Nat} (hm : m.Cells425 T) : ∀ (o t u : Nat) (s : St),
    Intr425Head 0 m u (exec m intr425Clear s) → t / 16 = o → u + t ≤ T →
    ∃ s', intr425Outer m (o + 1) (32 * t) s = exec m intr425Flush s' ∧ Intr425Head 16 m (u + t) s'
  | 0, t, u, s, h, ho, ht => by
    obtain ⟨s', e, h2⟩ := inner_head hm 16 0 t u _ h (by omega) ht
    refine ⟨s', ?_, ?_⟩
    · unfold intr425Outer
      rw [e]
      unfold intr425Outer
      rfl
    · rw [show min 16 t = t by omega] at h2
      obtain ⟨E, hE, h3⟩ := h2.env
      exact ⟨E, intr425R_mono (by omega) hE, h3⟩
  | o + 1, t, u, s, h, ho, ht => by
    obtain ⟨s', e, h2⟩ := inner_head hm 16 0 t u _ h (by omega) ht
    rw [show min 16 t = 16 by omega] at e h2
    have a1 := hm.lhs
    have a2 := hm.rhs
    have h3 := Kern.headR_step (by decide) rfl rfl rfl (intr425R_zero 0) intr425_again.1 intr425_again.2 h2
      (by rw [intr425_gl]; omega) (by rw [intr425_gr]; omega)
    rw [exec_append] at h3
    obtain ⟨s2, e2, h4⟩ := outer_head hm o (t - 16) (u + 16) _ h3 (by omega) (by omega)
    refine ⟨s2, ?_, ?_⟩
    · rw [intr425Outer, e]
      exact e2
    · rw [show u + t = u + 16 + (t - 16) by omega]; exact h4

/-- All reads are within the packed operands, and each word stored is the accumulator plus the sum of products. -/
theorem intr425_ok {m : Mem} {t : Nat} (hm : m.Cells425 t)
    (hl : ∀ i, -7 ≤ intr425F.lhs.kval (m.lhs.get i) ∧ intr425F.lhs.kval (m.lhs.get i) ≤ 7)
    (hr : ∀ i, -9 ≤ intr425F.rhs.kval (m.rhs.get i) ∧ intr425F.rhs.kval (m.rhs.get i) ≤ 9) (x : Nat → DReg) {k : Nat}
    (hk : k < 8) :
    (intr425Run m (32 * t) ⟨x, 0, 0, true⟩).ok = true ∧ intr425Word (intr425Run m (32 * t) ⟨x, 0, 0, true⟩) k =
      m.acc k + BitVec.ofInt 32 (sumTo (32 * t) (fun d =>
        runCoeff intr425F.lhs m.lhs 0 (k % 4) d * runCoeff intr425F.rhs m.rhs 0 (k / 4) d)) := by
  have h0 := Kern.headR_init (K := intr425K) (by decide) rfl rfl rfl (intr425R_zero 0) (m := m) hl hr intr425_start.1 intr425_start.2 x
  rw [exec_append] at h0
  obtain ⟨s, e, h1⟩ := outer_head hm (t / 16) t 0 _ h0 rfl (by omega)
  rw [Nat.zero_add] at h1
  obtain ⟨l1, l2, l3⟩ := intr425_last
  have hrun : intr425Run m (32 * t) ⟨x, 0, 0, true⟩ = exec m (intr425Flush ++ intr425Sum) s := by
    unfold intr425Run
    rw [show 32 * t / 512 = t / 16 by omega, e, exec_append]
  have hf : lanePoly (sym (intr425R 16) (intr425Flush ++ intr425Sum) intr425K.T).x (2 * (80 + k / 4) + k % 4 / 2) 4
      (k % 2) = some (intr425Fin k) := by
    unfold intr425Fin
    have := l3 k hk
    cases h : lanePoly (sym (intr425R 16) (intr425Flush ++ intr425Sum) intr425K.T).x (2 * (80 + k / 4) + k % 4 / 2) 4
      (k % 2) with
    | none => rw [h] at this; cases this
    | some p => rfl
  have := Kern.headR_last h1 (by rw [l1, intr425_gl]; exact hm.lhs) (by rw [l2, intr425_gr]; exact hm.rhs) hk hf
  rw [hrun]
  exact this

theorem Mem.Part.inner425 {m' m : Mem} (hP : m'.Part m) : ∀ (k n : Nat) {s : St},
    (intr425Inner m' k n s).1.ok = true → intr425Inner m k n s = intr425Inner m' k n s ∧ s.ok = true
  | 0, _, _, h => ⟨rfl, h⟩
  | k + 1, n, s, h => by
    unfold intr425Inner at h ⊢
    by_cases hc : 32 ≤ n
    · rw [if_pos hc] at h ⊢
      rw [if_pos hc]
      obtain ⟨e, h2⟩ := Mem.Part.inner425 hP k (n - 32) h
      rw [hP.exec _ h2]
      exact ⟨e, exec_ok h2⟩
    · rw [if_neg hc] at h ⊢
      rw [if_neg hc]
      exact ⟨rfl, h⟩

theorem Mem.Part.outer425 {m' m : Mem} (hP : m'.Part m) : ∀ (o n : Nat) {s : St},
    (intr425Outer m' o n s).ok = true → intr425Outer m o n s = intr425Outer m' o n s ∧ s.ok = true
  | 0, _, _, h => ⟨rfl, h⟩
  | o + 1, n, s, h => by
    rw [intr425Outer] at h
    obtain ⟨e1, h1⟩ := Mem.Part.outer425 hP o _ h
    have h2 := exec_ok h1
    obtain ⟨e2, h3⟩ := hP.inner425 _ _ h2
    rw [intr425Outer, intr425Outer]
    rw [hP.exec _ h3, e2, hP.exec _ h1]
    exact ⟨e1, exec_ok h3⟩

theorem Mem.Part.intr425 {m' m : Mem} (hP : m'.Part m) {depth : Nat} {s : St}
    (h : (intr425Run m' depth s).ok = true) : intr425Run m depth s = intr425Run m' depth s := by
  unfold intr425Run at h ⊢
  obtain ⟨e, h2⟩ := hP.outer425 _ _ (exec_ok h)
  rw [hP.exec _ h2, e, hP.exec _ h]

/-- **C76.**  The kernel for 4.25-bit operands that is written with intrinsics leaves the accumulators that the
reference leaves, for operands in the ranges of `SET_425BIT_RANGES`, if the reference does not overflow. -/
theorem C76_int425_intrinsics (x : Nat → DReg) {lhs rhs : Buf UInt8} {accum : Buf (BitVec 32)} {depth : Nat}
    (hd : 32 ∣ depth) (hl : lhs.size = allocated (4 * depth)) (hr : rhs.size = allocated (2 * depth))
    (ha : accum.size = 8) (hlr : InRange intr425F.lhs lhs (4 * depth) (-7) 7)
    (hrr : InRange intr425F.rhs rhs (2 * depth) (-9) 9) (hno : NoOverflow intr425F lhs rhs accum depth) :
    Agree 8 (intr425 x lhs rhs accum depth) (reference .trap intr425F lhs rhs accum depth) := by
  have hW : intr425F.WF 32 := by
    exact ⟨⟨by decide, by decide, by decide, fun h => (by cases h), by decide, by decide⟩,
      ⟨by decide, by decide, by decide, fun h => (by cases h), by decide, by decide⟩, rfl⟩
  unfold allocated at hl hr
  have e1 : intr425F.kRows = 4 := rfl
  have e2 : intr425F.kCols = 2 := rfl
  have hd' := hd
  obtain ⟨t, rfl⟩ := hd
  obtain ⟨y, hy, hA⟩ := reference_ok (mode := .trap) hW (accum := accum) (lhs := lhs) (rhs := rhs) hd'
    (by rw [e1]; omega) (by rw [e2]; omega) ha
    (b := fun r c => (accum.get (r + c * intr425F.kRows)).toInt) (fun r c _ _ => (ofInt_toInt32 _).symm)
    (fun _ => hno)
  let m' : Mem := ⟨firstBytes lhs (4 * (32 * t)), firstBytes rhs (2 * (32 * t)), accum.get⟩
  have hpart : m'.Part ⟨lhs, rhs, accum.get⟩ := part_first (m := ⟨lhs, rhs, accum.get⟩) (by dsimp only; omega)
    (by dsimp only; omega)
  have hc : m'.Cells425 t := ⟨by show t * 128 ≤ 4 * (32 * t); omega, by show t * 64 ≤ 2 * (32 * t); omega⟩
  have hw := fun k (hk : k < 8) => intr425_ok hc (Kern.inRange_first hlr (by decide)) (Kern.inRange_first hrr (by decide)) x hk
  have hok' := (hw 0 (by omega)).1
  have hsame := hpart.intr425 hok'
  have hrun : intr425 x lhs rhs accum (32 * t) = .ok ⟨accum.size, fun k =>
      if k < 8 then intr425Word (intr425Run m' (32 * t) ⟨x, 0, 0, true⟩) k else accum.get k⟩ := by
    unfold intr425
    rw [hsame]
    exact if_pos hok'
  refine ⟨_, y, hrun, hy, ha, hA.size, fun k hk => ?_⟩
  show (if k < 8 then _ else _) = _
  rw [if_pos hk, (hw k hk).2]
  have hv := hA.val (k % 4) (k / 4) (by rw [e1]; omega) (by rw [e2]; omega)
  rw [e1, show k % 4 + k / 4 * 4 = k by omega] at hv
  rw [hv, BitVec.ofInt_add, ofInt_toInt32]
  congr 2
  refine sumTo_congr (fun d hd => ?_)
  have f1 : runCoeff intr425F.lhs m'.lhs 0 (k % 4) d = runCoeff intr425F.lhs lhs 0 (k % 4) d :=
    runCoeff_first hW.lhs (Nat.le_refl _) (by omega) (Nat.mod_lt _ (by decide)) hd' hd
  have f2 : runCoeff intr425F.rhs m'.rhs 0 (k / 4) d = runCoeff intr425F.rhs rhs 0 (k / 4) d :=
    runCoeff_first hW.rhs (Nat.le_refl _) (by omega) (by show k / 4 < 2; omega) hd' hd
  rw [f1, f2]

/-- Inputs as in the theorem above: 544 levels of depth, so that the outer loop is passed twice, with the extreme
operands that add up. -/
example : ∃ lhs rhs : Buf UInt8, ∃ accum : Buf (BitVec 32), lhs.size = allocated (4 * 544) ∧
    rhs.size = allocated (2 * 544) ∧ accum.size = 8 ∧ InRange intr425F.lhs lhs (4 * 544) (-7) 7 ∧
    InRange intr425F.rhs rhs (2 * 544) (-9) 9 ∧ NoOverflow intr425F lhs rhs accum 544 := by
  refine ⟨⟨allocated (4 * 544), fun _ => 249⟩, ⟨allocated (2 * 544), fun _ => 247⟩, ⟨8, fun _ => 0⟩, rfl, rfl, rfl,
    fun i _ => (by decide : -7 ≤ intr425F.lhs.kval 249 ∧ intr425F.lhs.kval 249 ≤ 7),
    fun i _ => (by decide : -9 ≤ intr425F.rhs.kval 247 ∧ intr425F.rhs.kval 247 ≤ 9), ?_⟩
  intro r c n _ _ hn
  have e : sumTo n (fun d => runCoeff intr425F.lhs ⟨allocated (4 * 544), fun _ => 249⟩ 0 r d *
      runCoeff intr425F.rhs ⟨allocated (2 * 544), fun _ => 247⟩ 0 c d) = 63 * (n : Int) := by
    clear hn
    induction n with
    | zero => rfl
    | succ n ih => 
      show sumTo n _ + _ = _
      rw [ih]
      have : intr425F.lhs.kval 249 * intr425F.rhs.kval 247 = 63 := by decide
      show 63 * (n : Int) + intr425F.lhs.kval 249 * intr425F.rhs.kval 247 = _
      rw [this]
      push_cast
      ring
  rw [e]
  show InI32 (0 + 63 * (n : Int))
  unfold InI32
  omega

end Gemmlowp.Bench
