import Verif.OutStoreProof
/-!
# Unpacking with vector instructions stores what the scalar code stores
-/
namespace Gemmlowp.OutSimd

variable {A : VArch} {p : Pipeline} {x : UnpackCtx} {rows cols : Nat} {val : Nat → Nat → Int}
  {acc : Nat → Nat → Int} {SL SR LO RO : Nat → Int}

theorem Cast.elt_has {c : Cast} (h : Cast.Supports A c) : Elt.Has A (Cast.elt c) := by
  cases c <;> intro h' <;> first | exact h | cases h'

/-- The accumulators that go through the pipeline. -/
def accAt (x : UnpackCtx) (acc : Nat → Nat → Int) (SL SR LO RO : Nat → Int) (r c : Nat) : BitVec 32 :=
  BitVec.ofInt 32 (corrected x.depth (acc r c) (SL r) (SR c) (LO r + x.k.lhs.zp) (RO c + x.k.rhs.zp))

/-- What is known of the pipeline on the accumulators. -/
def Vals (A : VArch) (p : Pipeline) (x : UnpackCtx) (rows cols : Nat) (a : Nat → Nat → BitVec 32)
    (val : Nat → Nat → Int) : Prop :=
  ∀ r c, r < rows → c < cols → p.scalar x.mode (r + x.startRow) (c + x.startCol) (a r c) = .ok (val r c) ∧
    p.Safe A x.mode (r + x.startRow) (c + x.startCol) (a r c)

theorem evalBlock_ok (hsup : p.Supports A) (h : x.Holds rows cols acc SL SR LO RO)
    (hv : Vals A p x rows cols (accAt x acc SL SR LO RO) val) {R C r c : Nat} (hsh : Shape R C)
    (hr : r + R ≤ rows) (hc : c + C ≤ cols) :
    evalBlock A p x R C r c (r + x.startRow) (c + x.startCol) =
      .ok (finalRegs A (Cast.elt p.cast) (R * C) fun k => val (r + k % R) (c + k / R)) := by
  unfold evalBlock
  rw [accBlock_ok (wrapOk A) h hsh hr hc, ok_bind]
  have hst : ∀ i j, i < R → j < C → ∃ y, scalarStages x.mode p.stages (r + x.startRow + i) (c + x.startCol + j)
      (accAt x acc SL SR LO RO (r + i) (c + j)) = .ok y ∧ p.cast.reg y = val (r + i) (c + j) := by
    intro i j hi hj
    have h1 := (hv (r + i) (c + j) (by omega) (by omega)).1
    unfold Pipeline.scalar at h1
    obtain ⟨e1, e2⟩ := bind_ok_val h1
    rw [show r + i + x.startRow = r + x.startRow + i by omega,
      show c + j + x.startCol = c + x.startCol + j by omega] at e1 e2
    exact ⟨_, e1, Except.ok.inj e2⟩
  let g : Nat → Nat → BitVec 32 := fun i j => okVal (scalarStages x.mode p.stages (r + x.startRow + i)
    (c + x.startCol + j) (accAt x acc SL SR LO RO (r + i) (c + j)))
  have hg : ∀ i j, i < R → j < C → scalarStages x.mode p.stages (r + x.startRow + i) (c + x.startCol + j)
      (accAt x acc SL SR LO RO (r + i) (c + j)) = .ok (g i j) ∧ p.cast.reg (g i j) = val (r + i) (c + j) := by
    intro i j hi hj
    obtain ⟨y, e1, e2⟩ := hst i j hi hj
    have : g i j = y := by show okVal _ = _; rw [e1]; rfl
    rw [this]
    exact ⟨e1, e2⟩
  have hs := evalStages_ok A x.mode p.stages (row := r + x.startRow) (col := c + x.startCol)
    (f := fun i j => accAt x acc SL SR LO RO (r + i) (c + j)) (g := g) hsh hsup.1
    (fun i j hi hj => by
      have h2 := (hv (r + i) (c + j) (by omega) (by omega)).2
      rw [show r + i + x.startRow = r + x.startRow + i by omega,
        show c + j + x.startCol = c + x.startCol + j by omega] at h2
      exact h2)
    (fun i j hi hj => (hg i j hi hj).1)
  unfold accAt at hs
  rw [hs, ok_bind, castRegs_ok A p.cast hsup.2 hsh g]
  congr 1
  have hR : 0 < R := by rcases hsh.1 with h | h | h <;> omega
  refine finalRegs_congr ?_ fun k hk => (hg _ _ (Nat.mod_lt _ hR) ?_).2
  · rcases hsh with ⟨rfl | rfl | rfl, rfl | rfl⟩ <;> cases A <;> cases p.cast <;> decide
  · exact Nat.div_lt_of_lt_mul (by rw [Nat.mul_comm] at hk; rwa [Nat.mul_comm])

theorem rect_out {dst : MatrixMap} {r c R C : Nat} {o : Nat → Nat → Nat × Int}
    (h : ∀ i j, i < R → j < C → (dst.addr (r + x.startRow + i) (c + x.startCol + j),
      val (r + (i + j * R) % R) (c + (i + j * R) / R)) = o (r + i) (c + j)) :
    rect (fun i j => (dst.addr (r + x.startRow + i) (c + x.startCol + j),
      (fun k => val (r + k % R) (c + k / R)) (i + j * R))) 0 R 0 C = rect o r R c C := by
  have := rect_shift r c (out := o) 0 R 0 C
  rw [Nat.add_zero, Nat.add_zero] at this
  rw [← this]
  exact rect_congr fun i j _ hi _ hj => h i j (by omega) (by omega)

theorem out_at {R i j r c : Nat} (hi : i < R) :
    (x.dst.addr (r + x.startRow + i) (c + x.startCol + j), val (r + (i + j * R) % R) (c + (i + j * R) / R)) =
      x.outOf val (r + i) (c + j) := by
  unfold UnpackCtx.outOf
  rw [Nat.add_mul_mod_self_right, Nat.mod_eq_of_lt hi, Nat.add_mul_div_right _ _ (by omega),
    Nat.div_eq_of_lt hi, Nat.zero_add, show r + x.startRow + i = r + i + x.startRow by omega,
    show c + x.startCol + j = c + j + x.startCol by omega]

theorem blockV_ok (hsup : p.Supports A) (h : x.Holds rows cols acc SL SR LO RO)
    (hv : Vals A p x rows cols (accAt x acc SL SR LO RO) val) {R C r c : Nat} (hsh : Shape R C)
    (hr : r + R ≤ rows) (hc : c + C ≤ cols) (t : Trace Int) :
    ∃ t', block A p x R C r c t = .ok t' ∧ Adds t t' (rect (x.outOf val) r R c C) := by
  unfold block
  rw [evalBlock_ok hsup h hv hsh hr hc, ok_bind]
  obtain ⟨t', e1, e2⟩ := storeV_adds (Cast.elt_has hsup.2) (Or.inl hsh) x.dst (r + x.startRow)
    (c + x.startCol) (fun k => val (r + k % R) (c + k / R)) t
  refine ⟨t', e1, ?_⟩
  rw [rect_out (o := x.outOf val) fun i j hi hj => out_at hi] at e2
  exact e2

theorem loadReg_ok {n a : Nat} {b : Buf (Option Int)} {v : Nat → Int}
    (h : ∀ l, l < n → a + l < b.size ∧ b.get (a + l) = some (v l)) :
    loadReg n b a = .ok ((List.range n).map v) := by
  unfold loadReg
  apply RBlock.mapM_ok
  intro l hl
  have := h l (List.mem_range.1 hl)
  rw [Buf.read_ok this.1, ok_bind, this.2]

theorem loadContiguousV_ok {e : Elt} {b : Buf (Option Int)} {v : Nat → Int} (hb : b.size = 64)
    (h : ∀ a, a < 64 → b.get a = some (v a)) : loadContiguousV A e b = .ok (finalRegs A e 64 v) := by
  unfold loadContiguousV finalRegs
  apply RBlock.mapM_ok
  intro k hk
  have hk' := List.mem_range.1 hk
  refine loadReg_ok fun l hl => ?_
  have hlt : perReg A e 64 * k + l < 64 := by
    have : perReg A e 64 * (64 / perReg A e 64) ≤ 64 := Nat.mul_div_le _ _
    have h2 : perReg A e 64 * (k + 1) ≤ perReg A e 64 * (64 / perReg A e 64) := Nat.mul_le_mul_left _ hk'
    rw [Nat.mul_add] at h2
    omega
  rw [hb, h _ hlt, Nat.mul_comm]
  exact ⟨by rw [Nat.mul_comm]; exact hlt, rfl⟩

theorem block8x8V_ok (hsup : p.Supports A) (h : x.Holds rows cols acc SL SR LO RO)
    (hv : Vals A p x rows cols (accAt x acc SL SR LO RO) val) {r c : Nat}
    (hr : r + 8 ≤ rows) (hc : c + 8 ≤ cols) (t : Trace Int) :
    ∃ t', block8x8 A p x r c t = .ok t' ∧ Adds t t' (rect (x.outOf val) r 8 c 8) := by
  unfold block8x8
  dsimp only
  have hsh : Shape 8 4 := ⟨Or.inl rfl, Or.inl rfl⟩
  have hhas := Cast.elt_has hsup.2
  obtain ⟨b1, e1, s1, g1⟩ := storeV_local hhas (fun k => val (r + k % 8) (c + 0 + k / 8)) 0 (by omega)
    { size := 64, get := fun _ => none } rfl
  obtain ⟨b2, e2, s2, g2⟩ := storeV_local hhas (fun k => val (r + k % 8) (c + (0 + 4) + k / 8)) 4 (by omega)
    b1 s1
  have hloop : forLoop 0 8 4 (fun cx buf => do
      let regs ← evalBlock A p x 8 4 r (c + cx) (r + x.startRow) (c + cx + x.startCol)
      storeFinalV A (Cast.elt p.cast) storeLocal (MatrixMap.mk3 .colMajor 0 8 8) 8 4 regs 0 cx buf)
      ({ size := 64, get := fun _ => none } : Buf (Option Int)) = .ok b2 := by
    rw [forLoop, if_pos (by omega), if_pos (by omega),
      evalBlock_ok hsup h hv (c := c + 0) hsh hr (by omega), ok_bind, e1, ok_bind,
      forLoop, if_pos (by omega), if_pos (by omega),
      evalBlock_ok hsup h hv (c := c + (0 + 4)) hsh hr (by omega), ok_bind, e2, ok_bind,
      forLoop, if_neg (by omega)]
  rw [hloop, ok_bind]
  have hload := loadContiguousV_ok (A := A) (e := Cast.elt p.cast) (b := b2)
    (v := fun k => val (r + k % 8) (c + k / 8)) s2 (fun a ha => by
      rw [g2]
      by_cases h4 : 8 * 4 ≤ a ∧ a < 8 * 4 + 32
      · rw [if_pos h4]
        rw [show (a - 8 * 4) % 8 = a % 8 by omega, show c + (0 + 4) + (a - 8 * 4) / 8 = c + a / 8 by omega]
      · rw [if_neg h4, g1, if_pos (by omega)]
        rw [show (a - 8 * 0) % 8 = a % 8 by omega, show c + 0 + (a - 8 * 0) / 8 = c + a / 8 by omega])
  rw [hload, ok_bind]
  obtain ⟨t', e1, e2⟩ := storeV_adds hhas (Or.inr ⟨rfl, rfl⟩) x.dst (r + x.startRow)
    (c + x.startCol) (fun k => val (r + k % 8) (c + k / 8)) t
  refine ⟨t', e1, ?_⟩
  rw [rect_out (o := x.outOf val) fun i j hi hj => out_at hi] at e2
  exact e2

/-- Unpacking with vector instructions stores, for every accumulator that meets no difference between
scalar and vector code, what the scalar pipeline computes. -/
theorem vecOps_ok {mode : OvMode} (hsup : p.Supports A) :
    OutOk (vecOps A p) mode (fun r c v w => p.scalar mode r c v = .ok w ∧ p.Safe A mode r c v) := by
  intro x rows cols acc SL SR LO RO val hm h hv
  subst hm
  exact ⟨fun R C r c t hR hC hr hc => blockV_ok hsup h hv ⟨hR, hC⟩ hr hc t,
    fun r c t _ hr hc => block8x8V_ok hsup h hv hr hc t⟩

end Gemmlowp.OutSimd
