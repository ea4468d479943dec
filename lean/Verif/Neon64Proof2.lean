import Verif.Neon64Proof
import Verif.LnzProof
/-!
# `NEON_64bit_GEMM_Int8Operands_LhsNonzero` meets the kernel contract
-/
namespace Gemmlowp.Vec

open Asm (Tile Covers)

/-- The products of rows 0 and 1 of the cells at `lp` and `rp` are in registers 8 to 15, the right-hand
columns in 0 to 3, rows 2 and 3 in 6 and 7, the pointers are past the cells. -/
structure ReadyLnz (m : Mem) (lp rp : Nat) (s : St) : Prop where
  lpos : s.lp = lp + 64
  rpos : s.rp = rp + 64
  b : ∀ c, c < 4 → s.x c = bytes m.rhs (rp + 16 * c)
  a : ∀ r, r < 2 → s.x (6 + r) = bytes m.lhs (lp + 16 * (2 + r))
  p : ∀ r c, r < 2 → c < 4 →
    s.x (8 + 4 * r + c) = prodV (bytes m.rhs (rp + 16 * c)) (bytes m.lhs (lp + 16 * r))

theorem lnz64Loop_lo (m : Mem) (s : St) (r c : Nat) (hr : r < 2) (hc : c < 4) :
    (exec m lnz64Loop s).x (16 + 4 * r + c) =
      sadalpV (s.x (16 + 4 * r + c)) (s.x (8 + 4 * r + c)) := by
  interval_cases r <;> interval_cases c <;> rfl

theorem lnz64Loop_hi (m : Mem) (s : St) (r c : Nat) (hr : r < 2) (hc : c < 4) :
    (exec m lnz64Loop s).x (24 + 4 * r + c) =
      sadalpV (s.x (24 + 4 * r + c)) (prodV (s.x c) (s.x (6 + r))) := by
  interval_cases r <;> interval_cases c <;> rfl

theorem lnz64Loop_p (m : Mem) (s : St) (r c : Nat) (hr : r < 2) (hc : c < 4) :
    (exec m lnz64Loop s).x (8 + 4 * r + c) =
      prodV (bytes m.rhs (s.rp + 16 * c)) (bytes m.lhs (s.lp + 16 * r)) := by
  interval_cases r <;> interval_cases c <;> rfl

theorem lnz64Loop_b (m : Mem) (s : St) (c : Nat) (hc : c < 4) :
    (exec m lnz64Loop s).x c = bytes m.rhs (s.rp + 16 * c) := by
  interval_cases c <;> rfl

theorem lnz64Loop_a (m : Mem) (s : St) (r : Nat) (hr : r < 2) :
    (exec m lnz64Loop s).x (6 + r) = bytes m.lhs (s.lp + 16 * (2 + r)) := by
  interval_cases r <;> rfl

/-- `addp` -/
def addpV (v u : VReg) : VReg :=
  ofS fun i => if i < 2 then v.s (2 * i) + v.s (2 * i + 1)
    else u.s (2 * (i - 2)) + u.s (2 * (i - 2) + 1)

/-- The accumulator of row `r`, column `c` after the last cells. -/
def lnzAcc (s : St) (r c : Nat) : VReg :=
  sadalpV (s.x (16 + 4 * r + c)) (if r < 2 then s.x (8 + 4 * r + c) else prodV (s.x c) (s.x (4 + r)))

theorem lnz64_end0 (m : Mem) (s : St) (c : Nat) (hc : c < 4) :
    (exec m lnz64End0 (exec m lnz64Last s)).x (12 + c) =
      addpV (addpV (lnzAcc s 0 c) (lnzAcc s 1 c)) (addpV (lnzAcc s 2 c) (lnzAcc s 3 c)) := by
  interval_cases c <;> rfl

theorem lnz64_end1 (m : Mem) (s : St) (c : Nat) (hc : c < 4) :
    (exec m lnz64End1 (exec m lnz64Last s)).x (8 + c) =
      addpV (addpV (lnzAcc s 0 c) (lnzAcc s 1 c)) (addpV (lnzAcc s 2 c) (lnzAcc s 3 c)) := by
  interval_cases c <;> rfl

/-- Adding neighbours twice gives the sums of four registers. -/
theorem addpV_total (v : Nat → VReg) (r : Nat) (hr : r < 4) :
    (addpV (addpV (v 0) (v 1)) (addpV (v 2) (v 3))).s r = total (v r) := by
  unfold addpV total
  interval_cases r <;> simp only [s_ofS] <;> rfl

theorem ReadyLnz.acc {m : Mem} {lp rp : Nat} {s : St} (h : ReadyLnz m lp rp s) {r c : Nat}
    (hr : r < 4) (hc : c < 4) :
    lnzAcc s r c = sadalpV (s.x (16 + 4 * r + c))
      (prodV (bytes m.rhs (rp + 16 * c)) (bytes m.lhs (lp + 16 * r))) := by
  unfold lnzAcc
  split
  · next h2 => rw [h.p r c h2 hc]
  · next h2 =>
    have := h.a (r - 2) (by omega)
    rw [show 6 + (r - 2) = 4 + r by omega, show 2 + (r - 2) = r by omega] at this
    rw [h.b c hc, this]

theorem lnzAcc_total {m : Mem} {lp rp : Nat} {s : St} (h : ReadyLnz m lp rp s) {r c : Nat}
    (hr : r < 4) (hc : c < 4)
    (hp : ∀ e, e < lnz64Format.kDepth → lnzNeeds.pair (runCoeff lnz64Format.lhs m.lhs lp r e)
      (runCoeff lnz64Format.rhs m.rhs rp c e)) :
    total (lnzAcc s r c) =
      total (s.x (16 + 4 * r + c)) + BitVec.ofInt 32 (cellSum lnz64Format m lp rp r c) := by
  obtain ⟨h1, h2⟩ := cellSum_16 (F := lnz64Format) (w := 4) rfl rfl m lp rp r c hr hc
  rw [h.acc hr hc, h2]
  apply total_step
  intro e he
  have := hp e he
  rw [(h1 e he).1, (h1 e he).2] at this
  exact this

theorem lnz64_cells (endl : List Ins) (reg : Nat → Nat)
    (hend : ∀ m s c, c < 4 → (exec m endl (exec m lnz64Last s)).x (reg c) =
      addpV (addpV (lnzAcc s 0 c) (lnzAcc s 1 c)) (addpV (lnzAcc s 2 c) (lnzAcc s 3 c))) :
    Cells lnz64Format lnzNeeds.pair lnz64Pre lnz64Loop lnz64Last ReadyLnz (fun _ _ _ => 0#32)
      (fun s r c => total (s.x (16 + 4 * r + c))) (fun m s r c => ((exec m endl s).x (reg c)).s r) where
  pre := by
    intro m s hok hl hr
    have hl : s.lp + 64 ≤ m.lhs.size := hl
    have hr : s.rp + 64 ≤ m.rhs.size := hr
    refine ⟨⟨rfl, rfl, ?_, ?_, ?_⟩, ?_, ?_⟩
    · intro c hc; interval_cases c <;> rfl
    · intro r hr; interval_cases r <;> rfl
    · intro r c hr hc; interval_cases r <;> interval_cases c <;> rfl
    · rw [exec_ok]
      refine ⟨hok, ?_⟩
      simp only [okOf, lnz64Pre, ld1_16b, dup0, smull, smlal2, and_true]; omega
    · intro r c hr hc
      have hr : r < 4 := hr
      have hc : c < 4 := hc
      have : (exec m lnz64Pre s).x (16 + 4 * r + c) = fun _ => 0#8 := by
        interval_cases r <;> interval_cases c <;> rfl
      rw [this]
      unfold total
      rw [zero_s, zero_s, zero_s, zero_s]
      decide
  loop := by
    intro m lp rp s h hok hl hr
    have hl : lp + 2 * 64 ≤ m.lhs.size := hl
    have hr : rp + 2 * 64 ≤ m.rhs.size := hr
    have e1 := h.lpos
    have e2 := h.rpos
    refine ⟨⟨?_, ?_, ?_, ?_, ?_⟩, ?_, ?_⟩
    · show s.lp + 16 + 16 + 16 + 16 = lp + 64 + 64; omega
    · show s.rp + 16 + 16 + 16 + 16 = rp + 64 + 64; omega
    · intro c hc; rw [lnz64Loop_b m s c hc, e2]; rfl
    · intro r hr; rw [lnz64Loop_a m s r hr, e1]; rfl
    · intro r c hr hc; rw [lnz64Loop_p m s r c hr hc, e1, e2]; rfl
    · rw [exec_ok]
      refine ⟨hok, ?_⟩
      simp only [okOf, lnz64Loop, ld1_16b, sadalp, smull, smlal2, and_true]; omega
    · intro r c hr hc hp
      have hr : r < 4 := hr
      have hc : c < 4 := hc
      have e : (exec m lnz64Loop s).x (16 + 4 * r + c) = lnzAcc s r c := by
        unfold lnzAcc
        split
        · next h2 => exact lnz64Loop_lo m s r c h2 hc
        · next h2 =>
          have := lnz64Loop_hi m s (r - 2) c (by omega) hc
          rw [show 24 + 4 * (r - 2) + c = 16 + 4 * r + c by omega,
            show 6 + (r - 2) = 4 + r by omega] at this
          exact this
      rw [e]
      exact lnzAcc_total h hr hc hp
  last := by
    intro m lp rp s h hok hl hr
    refine ⟨?_, ?_⟩
    · rw [exec_ok]; exact ⟨hok, trivial⟩
    · intro r c hr hc hp
      rw [hend m s c hc, addpV_total (fun r => lnzAcc s r c) r hr]
      exact lnzAcc_total h hr hc hp

/-- Blocks of one register per column, for a kernel with four rows. -/
theorem colTiles {C : Nat} {tiles : List Tile} (reg : Nat → Nat)
    (hn : (tiles.map Tile.reg).Nodup)
    (h1 : ∀ t ∈ tiles, t.row = 0 ∧ t.col < C ∧ t.reg = reg t.col)
    (h2 : ∀ c : Fin C, ⟨reg c, 0, c⟩ ∈ tiles) : ColTiles C reg tiles where
  covers :=
    { nodup := hn
      inside := by
        intro t ht
        obtain ⟨a, b, -⟩ := h1 t ht
        exact ⟨by omega, b, by rw [a]; exact Nat.dvd_zero _⟩
      find := by
        intro r c hr hc
        exact ⟨_, h2 ⟨c, hc⟩, by dsimp only; omega, rfl⟩
      unique := by
        intro t ht t' ht' e1 e2
        rw [(h1 t ht).2.2, (h1 t' ht').2.2, e2] }
  reg := fun t ht => (h1 t ht).2.2

theorem Cells.endSums {F : KernelFormat} {pair : Int → Int → Prop} {pre loop last endl : List Ins}
    {ready : Mem → Nat → Nat → St → Prop} {obs : St → Nat → Nat → BitVec 32} {reg : Nat → Nat}
    (h : Cells F pair pre loop last ready (fun _ _ _ => 0#32) obs
      (fun m s r c => ((exec m endl s).x (reg c)).s r)) {w : Nat} (hw : 32 ≤ w)
    (hl : F.lhs.cd = F.kDepth) (hr : F.rhs.cd = F.kDepth) (hkd : 0 < F.kDepth)
    (hend : ∀ m lp rp, okOf m endl lp rp) :
    EndSums F pair reg (fun m rd s => exec m endl
      (pipe m F.kDepth loop last (BitVec.ofNat w rd - BitVec.ofNat w F.kDepth) (exec m pre s))) := by
  intro m N s hint hok hlb hrb
  obtain ⟨h1, h2⟩ := h.main hw hl hr hkd m N s hint hok hlb hrb
  refine ⟨?_, ?_⟩
  · rw [exec_ok]; exact ⟨h1, hend _ _ _⟩
  · intro r c hr hc hp
    have := h2 r c hr hc hp
    rw [BitVec.zero_add] at this
    exact this

theorem lnz64Kernel_ok (x0 : Nat → VReg) :
    KernelOk .wrap lnz64Format 16 lnzNeeds (lnz64Kernel x0) :=
  kernelAddLast_ok (F := lnz64Format) (reg0 := fun c => 12 + c) (reg1 := fun c => 8 + c) (by omega) rfl
    trivial (colTiles _ (by decide) (by decide) (by decide))
    (colTiles _ (by decide) (by decide) (by decide))
    ((lnz64_cells lnz64End0 _ lnz64_end0).endSums (w := 64) (by omega) rfl rfl (by decide)
      (fun _ _ _ => trivial))
    ((lnz64_cells lnz64End1 _ lnz64_end1).endSums (w := 64) (by omega) rfl rfl (by decide)
      (fun _ _ _ => trivial)) x0

end Gemmlowp.Vec
