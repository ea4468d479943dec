import Verif.Neon32
import Verif.Neon64Proof2
/-!
# The NEON kernels for 32-bit ARM meet the kernel contract
-/
namespace Gemmlowp.Vec

open Asm (Tile Covers)

/-! ## Halves of registers -/

theorem half_h (v : VReg) (k i : Nat) (hi : i < 4) : (half v k).h i = v.h (4 * k + i) := by
  unfold VReg.h half
  rw [if_pos (by omega), if_pos (by omega), show 8 * k + (2 * i + 1) = 2 * (4 * k + i) + 1 by omega,
    show 8 * k + 2 * i = 2 * (4 * k + i) by omega]

theorem half_s (v : VReg) (k i : Nat) (hi : i < 2) : (half v k).s i = v.s (2 * k + i) := by
  unfold VReg.s
  rw [half_h _ _ _ (by omega), half_h _ _ _ (by omega),
    show 4 * k + (2 * i + 1) = 2 * (2 * k + i) + 1 by omega,
    show 4 * k + 2 * i = 2 * (2 * k + i) by omega]

theorem half_byte (v : VReg) (k j : Nat) (hj : j < 8) : half v k j = v (8 * k + j) := if_pos hj

theorem half1_put0 (n o : VReg) : half (putD 0 n o) 1 = half o 1 := by
  funext j
  unfold half putD
  rw [if_pos rfl]
  split
  · rw [if_neg (by omega)]
  · rfl

theorem half0_put1 (n o : VReg) : half (putD 1 n o) 0 = half o 0 := by
  funext j
  unfold half putD
  rw [if_neg (show ¬ (1 = 0) by omega)]
  split
  · rw [if_pos (by omega)]
  · rfl

theorem half0_put0 (n o : VReg) : half (putD 0 n o) 0 = half n 0 := by
  funext j
  unfold half putD
  rw [if_pos rfl]
  split
  · rw [if_pos (by omega)]
  · rfl

theorem half1_put1 (n o : VReg) : half (putD 1 n o) 1 = half n 0 := by
  funext j
  unfold half putD
  rw [if_neg (show ¬ (1 = 0) by omega)]
  split
  · rw [if_neg (by omega), show 8 * 1 + j - 8 = 8 * 0 + j by omega]
  · rfl

/-! ## `NEON_32_Kernel12x4Depth2` -/

/-- The register of the block with first row `row` in column `col`. -/
def reg32 (row col : Nat) : Nat := 4 + row + col

/-- A cell's bytes in 16 bits. -/
def wide (v : VReg) : VReg := ofH fun i => (half v 0 i).setWidth 16

/-- What the kernel does to an accumulator. -/
def tile32 (a0 b0 a1 b1 : VReg) (k : Nat) (acc : VReg) : VReg :=
  ofS fun i => (ofS fun i => acc.s i + (a0.h i).setWidth 32 * (b0.h k).setWidth 32).s i +
    (a1.h i).setWidth 32 * (b1.h k).setWidth 32

theorem neon32Loop_x (m : Mem) (s : St) (q c : Nat) (hq : q < 3) (hc : c < 4) :
    (exec m neon32Loop s).x (4 + 4 * q + c) =
      tile32 (half (wide (s.x (1 + q))) 0) (half (wide (s.x 0)) 0)
        (half (putD 0 (bytes m.lhs (s.lp + 8 * q)) (wide (s.x (1 + q)))) 1)
        (half (putD 0 (bytes m.rhs (s.rp + 0)) (wide (s.x 0))) 1) c (s.x (4 + 4 * q + c)) := by
  interval_cases q <;> interval_cases c <;> rfl

theorem neon32Last_x (m : Mem) (s : St) (q c : Nat) (hq : q < 3) (hc : c < 4) :
    (exec m neon32Last s).x (4 + 4 * q + c) =
      tile32 (half (wide (s.x (1 + q))) 0) (half (wide (s.x 0)) 0) (half (wide (s.x (1 + q))) 1)
        (half (wide (s.x 0)) 1) c (s.x (4 + 4 * q + c)) := by
  interval_cases q <;> interval_cases c <;> rfl

/-- The cells at `lp` and `rp` are in the registers, the pointers are past them. -/
structure Ready32 (m : Mem) (lp rp : Nat) (s : St) : Prop where
  lpos : s.lp = lp + 24
  rpos : s.rp = rp + 8
  a : ∀ q j, q < 3 → j < 8 → s.x (1 + q) j = (m.lhs.get (lp + 8 * q + j)).toBitVec
  b : ∀ j, j < 8 → s.x 0 j = (m.rhs.get (rp + j)).toBitVec

theorem tile32_lane {m : Mem} {lp rp : Nat} {s : St} (h : Ready32 m lp rp s) {q c i : Nat}
    (hq : q < 3) (hc : c < 4) (hi : i < 4) (acc : VReg) :
    (tile32 (half (wide (s.x (1 + q))) 0) (half (wide (s.x 0)) 0) (half (wide (s.x (1 + q))) 1)
      (half (wide (s.x 0)) 1) c acc).s i =
      acc.s i + BitVec.ofInt 32 (cellSum neon32Format m lp rp (4 * q + i) c) := by
  have ha : ∀ e, e < 2 → runCoeff neon32Format.lhs m.lhs lp (4 * q + i) e =
      ((m.lhs.get (lp + 8 * q + (4 * e + i))).toNat : Int) := by
    intro e he
    have := runCoeff_at (f := neon32Format.lhs) (b := m.lhs) (pos := lp) (q := q) (i := i) (u := 0)
      (e := e) hi he
    rw [Nat.mul_zero, Nat.zero_add] at this
    refine this.trans ?_
    show ((m.lhs.get (lp + (0 * 3 + q) * 8 + (i + e * 4))).toNat : Int) = _
    rw [show lp + (0 * 3 + q) * 8 + (i + e * 4) = lp + 8 * q + (4 * e + i) by omega]
  have hb : ∀ e, e < 2 → runCoeff neon32Format.rhs m.rhs rp c e =
      ((m.rhs.get (rp + (4 * e + c))).toNat : Int) := by
    intro e he
    have := runCoeff_at (f := neon32Format.rhs) (b := m.rhs) (pos := rp) (q := 0) (i := c) (u := 0)
      (e := e) hc he
    rw [Nat.mul_zero, Nat.zero_add, Nat.mul_zero, Nat.zero_add] at this
    refine this.trans ?_
    show ((m.rhs.get (rp + (0 * 1 + 0) * 8 + (c + e * 4))).toNat : Int) = _
    rw [show rp + (0 * 1 + 0) * 8 + (c + e * 4) = rp + (4 * e + c) by omega]
  have wa : ∀ e, e < 2 → (half (wide (s.x (1 + q))) e).h i =
      ((m.lhs.get (lp + 8 * q + (4 * e + i))).toBitVec).setWidth 16 := by
    intro e he
    unfold wide
    rw [half_h _ _ _ hi, h_ofH, half_byte _ _ _ (by omega), h.a q _ hq (by omega),
      show 8 * 0 + (4 * e + i) = 4 * e + i by omega]
  have wb : ∀ e, e < 2 → (half (wide (s.x 0)) e).h c =
      ((m.rhs.get (rp + (4 * e + c))).toBitVec).setWidth 16 := by
    intro e he
    unfold wide
    rw [half_h _ _ _ hc, h_ofH, half_byte _ _ _ (by omega), h.b _ (by omega),
      show 8 * 0 + (4 * e + c) = 4 * e + c by omega]
  unfold tile32
  rw [s_ofS, s_ofS, wa 0 (by omega), wa 1 (by omega), wb 0 (by omega), wb 1 (by omega),
    mul_bytes16, mul_bytes16, BitVec.add_assoc, ← BitVec.ofInt_add, ← ha 0 (by omega),
    ← ha 1 (by omega), ← hb 0 (by omega), ← hb 1 (by omega)]
  congr 2
  show _ = sumTo (1 + 1) _
  rw [sumTo_succ, sumTo_succ]
  show _ = (0 : Int) + _ + _
  rw [Int.zero_add]

theorem neon32_direct : Direct neon32Format reg32 neon32Pre neon32Loop neon32Last Ready32 where
  pre := by
    intro m s hok hl hr
    have hl : s.lp + 24 ≤ m.lhs.size := hl
    have hr : s.rp + 8 ≤ m.rhs.size := hr
    refine ⟨⟨rfl, rfl, ?_, ?_⟩, ?_, ?_⟩
    · intro q j hq hj; interval_cases q <;> interval_cases j <;> rfl
    · intro j hj; interval_cases j <;> rfl
    · rw [exec_ok]
      refine ⟨hok, ?_⟩
      simp only [okOf, neon32Pre, vld1, and_true]; omega
    · intro q c hq hc
      have hq : 4 * q < 12 := hq
      have hq : q < 3 := by omega
      have hc : c < 4 := hc
      interval_cases q <;> interval_cases c <;> rfl
  loop := by
    intro m lp rp s h hok hl hr
    have hl : lp + 2 * 24 ≤ m.lhs.size := hl
    have hr : rp + 2 * 8 ≤ m.rhs.size := hr
    have e1 := h.lpos
    have e2 := h.rpos
    refine ⟨⟨?_, ?_, ?_, ?_⟩, ?_, ?_⟩
    · show s.lp + 24 = lp + 24 + 24; omega
    · show s.rp + 8 = rp + 8 + 8; omega
    · intro q j hq hj
      show _ = (m.lhs.get (lp + 24 + 8 * q + j)).toBitVec
      rw [← e1]
      interval_cases q <;> interval_cases j <;> rfl
    · intro j hj
      show _ = (m.rhs.get (rp + 8 + j)).toBitVec
      rw [← e2]
      interval_cases j <;> rfl
    · rw [exec_ok]
      refine ⟨hok, ?_⟩
      simp only [okOf, neon32Loop, vldr, vmovl_u8, vmlal_u16, and_true]; omega
    · intro q c i hq hc hi
      have hq : 4 * q < 12 := hq
      have e : reg32 (4 * q) c = 4 + 4 * q + c := rfl
      rw [e, neon32Loop_x m s q c (by omega) hc, half1_put0, half1_put0]
      exact tile32_lane h (by omega) hc hi _
  last := by
    intro m lp rp s h hok hl hr
    refine ⟨?_, ?_⟩
    · rw [exec_ok]; exact ⟨hok, trivial⟩
    · intro q c i hq hc hi
      have hq : 4 * q < 12 := hq
      have e : reg32 (4 * q) c = 4 + 4 * q + c := rfl
      rw [e, neon32Last_x m s q c (by omega) hc]
      exact tile32_lane h (by omega) hc hi _

/-- The blocks of a kernel with `4 * Q` rows and `C` columns. -/
theorem tilesIn_of {Q C : Nat} {tiles : List Tile} (reg : Nat → Nat → Nat)
    (hn : (tiles.map Tile.reg).Nodup)
    (h1 : ∀ t ∈ tiles, t.row % 4 = 0 ∧ t.row < 4 * Q ∧ t.col < C ∧ t.reg = reg t.row t.col)
    (h2 : ∀ q : Fin Q, ∀ c : Fin C, ⟨reg (4 * q) c, 4 * q, c⟩ ∈ tiles) :
    TilesIn (4 * Q) C reg tiles where
  covers :=
    { nodup := hn
      inside := by
        intro t ht
        obtain ⟨a, b, c, -⟩ := h1 t ht
        exact ⟨by omega, c, Nat.dvd_of_mod_eq_zero a⟩
      find := by
        intro r c hr hc
        exact ⟨_, h2 ⟨r / 4, by omega⟩ ⟨c, hc⟩, by dsimp only; omega, rfl⟩
      unique := by
        intro t ht t' ht' e1 e2
        rw [(h1 t ht).2.2.2, (h1 t' ht').2.2.2, e1, e2] }
  reg := fun t ht => (h1 t ht).2.2.2

theorem neon32Kernel_ok (x0 : Nat → VReg) :
    KernelOk .wrap neon32Format 16 intNeeds (neon32Kernel x0) :=
  kernelLoadFirst_ok (F := neon32Format) (regOf := reg32) (by omega) (by decide)
    (tilesIn_of (Q := 3) (C := 4) (tiles := neon32Loads) reg32 (by decide) (by decide) (by decide))
    (tilesIn_of (Q := 3) (C := 4) (tiles := neon32Stores) reg32 (by decide) (by decide) (by decide))
    (fun m s => ⟨rfl, rfl, rfl⟩)
    (by
      intro m s q c i hq hc hi
      have hq : 4 * q < 12 := hq
      have hq : q < 3 := by omega
      have hc : c < 4 := hc
      interval_cases q <;> interval_cases c <;> exact zero_s i)
    (neon32_direct.mainAdds (w := 32) (by omega) rfl rfl (by decide) (by decide)) x0

/-! ## `NEON_32bit_GEMM_Int8Operands_LhsNonzero` -/

/-- Two products per 16-bit lane, from the halves of the operands. -/
def prodD (b0 a0 b1 a1 : VReg) : VReg :=
  ofH fun i => (ofH fun i => (b0 i).signExtend 16 * (a0 i).signExtend 16).h i +
    (b1 i).signExtend 16 * (a1 i).signExtend 16

theorem total_stepD {acc a b a0 b0 a1 b1 : VReg}
    (ha0 : ∀ j, j < 8 → a0 j = a j) (ha1 : ∀ j, j < 8 → a1 j = a (8 + j))
    (hb0 : ∀ j, j < 8 → b0 j = b j) (hb1 : ∀ j, j < 8 → b1 j = b (8 + j))
    (h : ∀ e, e < 16 → ¬ ((a e).toInt = -128 ∧ (b e).toInt = -128)) :
    total (sadalpV acc (prodD b0 a0 b1 a1)) = total acc +
      BitVec.ofInt 32 (sumTo 16 (fun e => (a e).toInt * (b e).toInt)) := by
  rw [← total_step h]
  have hh : ∀ i, i < 8 → (prodD b0 a0 b1 a1).h i = (prodV b a).h i := by
    intro i hi
    unfold prodD prodV
    rw [h_ofH, h_ofH, h_ofH, h_ofH, ha0 i hi, hb0 i hi, ha1 i hi, hb1 i hi]
  unfold total sadalpV
  simp only [s_ofS]
  rw [hh _ (by omega), hh _ (by omega), hh _ (by omega), hh _ (by omega), hh _ (by omega),
    hh _ (by omega), hh _ (by omega), hh _ (by omega)]

/-- The right-hand columns and rows 0 and 1 of the cells at `lp` and `rp` are in registers. -/
structure ReadyLnz32 (m : Mem) (lp rp : Nat) (s : St) : Prop where
  lpos : s.lp = lp
  rpos : s.rp = rp
  b : ∀ c j, c < 2 → j < 16 → s.x c j = bytes m.rhs (rp + 16 * c) j
  a : ∀ r j, r < 2 → j < 16 → s.x (2 + r) j = bytes m.lhs (lp + 16 * r) j

/-- Rows 2 and 3 as the loop loads them. -/
def lnz32Row (m : Mem) (s : St) (r : Nat) : VReg :=
  putD 1 (bytes m.lhs (s.lp + (32 + 16 * r + 8))) (putD 0 (bytes m.lhs (s.lp + (32 + 16 * r))) (s.x (2 + r)))

theorem lnz32Loop_lo (m : Mem) (s : St) (r c : Nat) (hr : r < 2) (hc : c < 2) :
    (exec m (lnz32A ++ lnz32B) s).x (8 + 2 * r + c) =
      sadalpV (s.x (8 + 2 * r + c)) (prodD (half (s.x c) 0) (half (s.x (2 + r)) 0) (half (s.x c) 1)
        (half (putD 0 (bytes m.lhs (s.lp + (32 + 16 * r))) (s.x (2 + r))) 1)) := by
  interval_cases r <;> interval_cases c <;> rfl

theorem lnz32Loop_hi (m : Mem) (s : St) (r c : Nat) (hr : r < 2) (hc : c < 2) :
    (exec m (lnz32A ++ lnz32B) s).x (12 + 2 * r + c) =
      sadalpV (s.x (12 + 2 * r + c)) (prodD (half (s.x c) 0) (half (lnz32Row m s r) 0)
        (half (putD 0 (bytes m.rhs (s.rp + 32 + 16 * c)) (s.x c)) 1)
        (half (putD 0 (bytes m.lhs (s.lp + 64 + 16 * r)) (lnz32Row m s r)) 1)) := by
  interval_cases r <;> interval_cases c <;> rfl

theorem lnz32Last_lo (m : Mem) (s : St) (r c : Nat) (hr : r < 2) (hc : c < 2) :
    (exec m (lnz32A ++ lnz32Last) s).x (8 + 2 * r + c) =
      sadalpV (s.x (8 + 2 * r + c)) (prodD (half (s.x c) 0) (half (s.x (2 + r)) 0) (half (s.x c) 1)
        (half (putD 0 (bytes m.lhs (s.lp + (32 + 16 * r))) (s.x (2 + r))) 1)) := by
  interval_cases r <;> interval_cases c <;> rfl

theorem lnz32Last_hi (m : Mem) (s : St) (r c : Nat) (hr : r < 2) (hc : c < 2) :
    (exec m (lnz32A ++ lnz32Last) s).x (12 + 2 * r + c) =
      sadalpV (s.x (12 + 2 * r + c)) (prodD (half (s.x c) 0) (half (lnz32Row m s r) 0)
        (half (s.x c) 1) (half (lnz32Row m s r) 1)) := by
  interval_cases r <;> interval_cases c <;> rfl

/-- The accumulator of row `r`, column `c` after the cells at hand. -/
def lnz32Acc (m : Mem) (s : St) (r c : Nat) : VReg :=
  sadalpV (s.x (8 + 2 * r + c)) (prodD (half (s.x c) 0)
    (half (if r < 2 then s.x (2 + r) else lnz32Row m s (r - 2)) 0) (half (s.x c) 1)
    (half (if r < 2 then s.x (2 + r) else lnz32Row m s (r - 2)) 1))

theorem lnz32Loop_x (m : Mem) (s : St) (r c : Nat) (hr : r < 4) (hc : c < 2) :
    (exec m (lnz32A ++ lnz32B) s).x (8 + 2 * r + c) = lnz32Acc m s r c := by
  unfold lnz32Acc
  by_cases h2 : r < 2
  · rw [lnz32Loop_lo m s r c h2 hc, if_pos h2, half1_put0]
  · have := lnz32Loop_hi m s (r - 2) c (by omega) hc
    rw [show 12 + 2 * (r - 2) + c = 8 + 2 * r + c by omega, half1_put0, half1_put0] at this
    rw [this, if_neg h2]

theorem lnz32Last_x (m : Mem) (s : St) (r c : Nat) (hr : r < 4) (hc : c < 2) :
    (exec m (lnz32A ++ lnz32Last) s).x (8 + 2 * r + c) = lnz32Acc m s r c := by
  unfold lnz32Acc
  by_cases h2 : r < 2
  · rw [lnz32Last_lo m s r c h2 hc, if_pos h2, half1_put0]
  · have := lnz32Last_hi m s (r - 2) c (by omega) hc
    rw [show 12 + 2 * (r - 2) + c = 8 + 2 * r + c by omega] at this
    rw [this, if_neg h2]

theorem lnz32Acc_total {m : Mem} {lp rp : Nat} {s : St} (h : ReadyLnz32 m lp rp s) {r c : Nat}
    (hr : r < 4) (hc : c < 2)
    (hp : ∀ e, e < lnz32Format.kDepth → lnzNeeds.pair (runCoeff lnz32Format.lhs m.lhs lp r e)
      (runCoeff lnz32Format.rhs m.rhs rp c e)) :
    total (lnz32Acc m s r c) =
      total (s.x (8 + 2 * r + c)) + BitVec.ofInt 32 (cellSum lnz32Format m lp rp r c) := by
  obtain ⟨h1, h2⟩ := cellSum_16 (F := lnz32Format) (w := 2) rfl rfl m lp rp r c hr hc
  have e1 := h.lpos
  have hrow : ∀ j, j < 16 → (if r < 2 then s.x (2 + r) else lnz32Row m s (r - 2)) j =
      bytes m.lhs (lp + 16 * r) j := by
    intro j hj
    by_cases h2 : r < 2
    · rw [if_pos h2]; exact h.a r j h2 hj
    · rw [if_neg h2]
      unfold lnz32Row putD bytes
      rw [if_neg (show ¬ (1 = 0) by omega), if_pos rfl, e1]
      by_cases h8 : j < 8
      · rw [if_pos h8, if_pos h8,
          show lp + (32 + 16 * (r - 2)) + j = lp + 16 * r + j by omega]
      · rw [if_neg h8,
          show lp + (32 + 16 * (r - 2) + 8) + (j - 8) = lp + 16 * r + j by omega]
  rw [h2]
  unfold lnz32Acc
  apply total_stepD
  · intro j hj; rw [half_byte _ _ _ hj, hrow _ (by omega), show 8 * 0 + j = j by omega]
  · intro j hj; rw [half_byte _ _ _ hj, hrow _ (by omega), show 8 * 1 + j = 8 + j by omega]
  · intro j hj; rw [half_byte _ _ _ hj, h.b c _ hc (by omega), show 8 * 0 + j = j by omega]
  · intro j hj; rw [half_byte _ _ _ hj, h.b c _ hc (by omega), show 8 * 1 + j = 8 + j by omega]
  · intro e he
    have := hp e he
    rw [(h1 e he).1, (h1 e he).2] at this
    exact this

/-- `vpadd.s32` -/
def vpaddV (v u : VReg) : VReg := ofS fun i => if i = 0 then v.s 0 + v.s 1 else u.s 0 + u.s 1

/-- The second pass of the horizontal addition. -/
theorem lnz32End_x (m : Mem) (s : St) (c : Nat) (hc : c < 2) :
    (exec m lnz32End s).x (4 + c) = putD 1 (vpaddV (half (s.x 2) c) (half (s.x 3) c))
      (putD 0 (vpaddV (half (s.x 0) c) (half (s.x 1) c)) (s.x (4 + c))) := by
  interval_cases c <;> rfl

/-- The first pass of the horizontal addition: the last eight instructions. -/
def lnz32Sums : List Ins :=
  [vpadd 0 16 17, vpadd 1 18 19, vpadd 2 20 21, vpadd 3 22 23, vpadd 4 24 25, vpadd 5 26 27,
   vpadd 6 28 29, vpadd 7 30 31]

theorem lnz32Last_split : lnz32Last = lnz32Last.take 12 ++ lnz32Sums := rfl

theorem exec_append (m : Mem) (l l' : List Ins) (s : St) :
    exec m (l ++ l') s = exec m l' (exec m l s) := List.foldl_append

theorem lnz32Sums_lo (m : Mem) (s : St) (r : Nat) (hr : r < 4) :
    (exec m lnz32Sums s).x r =
      putD 1 (vpaddV (half (s.x (8 + 2 * r + 1)) 0) (half (s.x (8 + 2 * r + 1)) 1))
        (putD 0 (vpaddV (half (s.x (8 + 2 * r)) 0) (half (s.x (8 + 2 * r)) 1)) (s.x r)) := by
  interval_cases r <;> rfl

theorem lnz32Sums_hi (m : Mem) (s : St) (j : Nat) (hj : j < 8) :
    (exec m lnz32Sums s).x (8 + j) = s.x (8 + j) := by
  interval_cases j <;> rfl

theorem lnz32Last_sums (m : Mem) (s : St) (r : Nat) (hr : r < 4) :
    ∃ y, (exec m (lnz32A ++ lnz32Last) s).x r =
      putD 1 (vpaddV (half ((exec m (lnz32A ++ lnz32Last) s).x (8 + 2 * r + 1)) 0)
          (half ((exec m (lnz32A ++ lnz32Last) s).x (8 + 2 * r + 1)) 1))
        (putD 0 (vpaddV (half ((exec m (lnz32A ++ lnz32Last) s).x (8 + 2 * r)) 0)
          (half ((exec m (lnz32A ++ lnz32Last) s).x (8 + 2 * r)) 1)) y) := by
  rw [lnz32Last_split, exec_append, exec_append]
  generalize exec m (lnz32Last.take 12) (exec m lnz32A s) = s'
  have h0 := lnz32Sums_hi m s' (2 * r) (by omega)
  have h1 := lnz32Sums_hi m s' (2 * r + 1) (by omega)
  rw [← Nat.add_assoc] at h1
  rw [h0, h1, lnz32Sums_lo m s' r hr]
  exact ⟨_, rfl⟩

theorem vpaddV_total (v : VReg) : (half (vpaddV (half v 0) (half v 1)) 0).s 0 +
    (half (vpaddV (half v 0) (half v 1)) 0).s 1 = total v := by
  rw [half_s _ _ _ (by omega), half_s _ _ _ (by omega)]
  unfold vpaddV total
  rw [s_ofS, s_ofS, if_pos rfl, if_neg (by omega), half_s _ _ _ (by omega), half_s _ _ _ (by omega),
    half_s _ _ _ (by omega), half_s _ _ _ (by omega)]

theorem putD_s (n0 n1 o : VReg) (i : Nat) (hi : i < 4) :
    (putD 1 n1 (putD 0 n0 o)).s i = if i < 2 then n0.s i else n1.s (i - 2) := by
  split
  · next h =>
    have := half_s (putD 1 n1 (putD 0 n0 o)) 0 i h
    rw [half0_put1, half0_put0, half_s _ _ _ h] at this
    rw [show 2 * 0 + i = i by omega] at this
    exact this.symm
  · next h =>
    have := half_s (putD 1 n1 (putD 0 n0 o)) 1 (i - 2) (by omega)
    rw [half1_put1, half_s _ _ _ (by omega)] at this
    rw [show 2 * 1 + (i - 2) = i by omega, show 2 * 0 + (i - 2) = i - 2 by omega] at this
    exact this.symm

theorem lnz32_end (m : Mem) (s : St) (r c : Nat) (hr : r < 4) (hc : c < 2) :
    ((exec m lnz32End (exec m (lnz32A ++ lnz32Last) s)).x (4 + c)).s r =
      total (lnz32Acc m s r c) := by
  -- register `r` has the pairs of row `r`: column `c` in half `c`
  have hreg : ∀ r, r < 4 → (half ((exec m (lnz32A ++ lnz32Last) s).x r) c).s 0 +
      (half ((exec m (lnz32A ++ lnz32Last) s).x r) c).s 1 = total (lnz32Acc m s r c) := by
    intro r hr
    obtain ⟨y, hy⟩ := lnz32Last_sums m s r hr
    rw [hy, lnz32Last_x m s r 1 hr (by omega), show 8 + 2 * r = 8 + 2 * r + 0 from rfl,
      lnz32Last_x m s r 0 hr (by omega)]
    by_cases h0 : c = 0
    · subst h0; rw [half0_put1, half0_put0]; exact vpaddV_total _
    · obtain rfl : c = 1 := by omega
      rw [half1_put1]; exact vpaddV_total _
  rw [lnz32End_x m _ c hc, putD_s _ _ _ _ hr]
  unfold vpaddV
  simp only [s_ofS]
  interval_cases r
  · rw [← hreg 0 (by omega)]; rfl
  · rw [← hreg 1 (by omega)]; rfl
  · rw [← hreg 2 (by omega)]; rfl
  · rw [← hreg 3 (by omega)]; rfl

theorem lnz32_cells :
    Cells lnz32Format lnzNeeds.pair lnz32Pre (lnz32A ++ lnz32B) (lnz32A ++ lnz32Last) ReadyLnz32
      (fun _ _ _ => 0#32) (fun s r c => total (s.x (8 + 2 * r + c)))
      (fun m s r c => ((exec m lnz32End s).x (4 + c)).s r) where
  pre := by
    intro m s hok hl hr
    have hl : s.lp + 64 ≤ m.lhs.size := hl
    have hr : s.rp + 32 ≤ m.rhs.size := hr
    refine ⟨⟨rfl, rfl, ?_, ?_⟩, ?_, ?_⟩
    · intro c j hc hj
      interval_cases c <;> interval_cases j <;> rfl
    · intro r j hr hj
      interval_cases r <;> interval_cases j <;> rfl
    · rw [exec_ok]
      refine ⟨hok, ?_⟩
      simp only [okOf, lnz32Pre, vldr, vmov0, vmov, and_true]; omega
    · intro r c hr hc
      have hr : r < 4 := hr
      have hc : c < 2 := hc
      have : (exec m lnz32Pre s).x (8 + 2 * r + c) = fun _ => 0#8 := by
        interval_cases r <;> interval_cases c <;> rfl
      rw [this]
      unfold total
      rw [zero_s, zero_s, zero_s, zero_s]
      decide
  loop := by
    intro m lp rp s h hok hl hr
    have hl : lp + 2 * 64 ≤ m.lhs.size := hl
    have hr : rp + 2 * 32 ≤ m.rhs.size := hr
    have e1 := h.lpos
    have e2 := h.rpos
    refine ⟨⟨?_, ?_, ?_, ?_⟩, ?_, ?_⟩
    · show s.lp + 64 = lp + 64; omega
    · show s.rp + 32 = rp + 32; omega
    · intro c j hc hj
      show _ = bytes m.rhs (rp + 32 + 16 * c) j
      rw [← e2]
      interval_cases c <;> interval_cases j <;> rfl
    · intro r j hr hj
      show _ = bytes m.lhs (lp + 64 + 16 * r) j
      rw [← e1]
      interval_cases r <;> interval_cases j <;> rfl
    · rw [exec_ok]
      refine ⟨hok, ?_⟩
      simp only [okOf, lnz32A, lnz32B, List.cons_append, List.nil_append, vldr, vmull_s8, vmlal_s8,
        vpadal_s16, and_true]
      omega
    · intro r c hr hc hp
      rw [lnz32Loop_x m s r c hr hc]
      exact lnz32Acc_total h hr hc hp
  last := by
    intro m lp rp s h hok hl hr
    have hl : lp + 64 ≤ m.lhs.size := hl
    have e1 := h.lpos
    refine ⟨?_, ?_⟩
    · rw [exec_ok]
      refine ⟨hok, ?_⟩
      simp only [okOf, lnz32A, lnz32Last, List.cons_append, List.nil_append, vldr, vmull_s8, vmlal_s8,
        vpadal_s16, vpadd, and_true]
      omega
    · intro r c hr hc hp
      rw [lnz32_end m s r c hr hc]
      exact lnz32Acc_total h hr hc hp

theorem lnz32Kernel_ok (x0 : Nat → VReg) :
    KernelOk .wrap lnz32Format 16 lnzNeeds (lnz32Kernel x0) :=
  kernelAddLast_ok (F := lnz32Format) (reg0 := fun c => 4 + c) (reg1 := fun c => 4 + c) (by omega) rfl
    trivial (colTiles _ (by decide) (by decide) (by decide))
    (colTiles _ (by decide) (by decide) (by decide))
    (lnz32_cells.endSums (w := 32) (by omega) rfl rfl (by decide) (fun _ _ _ => trivial))
    (lnz32_cells.endSums (w := 32) (by omega) rfl rfl (by decide) (fun _ _ _ => trivial)) x0

end Gemmlowp.Vec
