import Verif.Neon64
import Verif.Vec128Proof
/-!
# The NEON kernels for 64-bit ARM meet the kernel contract
-/
namespace Gemmlowp.Vec

open Asm (Tile Covers)

/-! ## Products of bytes -/

theorem zero_s (i : Nat) : VReg.s (fun _ => 0#8) i = 0#32 := by
  show ((0#8 ++ 0#8 : BitVec 16) ++ (0#8 ++ 0#8 : BitVec 16) : BitVec 32) = 0#32
  decide

theorem mul_bytes (a b : UInt8) :
    a.toBitVec.setWidth 32 * b.toBitVec.setWidth 32 =
      BitVec.ofInt 32 ((a.toNat : Int) * (b.toNat : Int)) := by
  apply BitVec.eq_of_toNat_eq
  have ha := a.toNat_lt
  have hb := b.toNat_lt
  have hab : a.toNat * b.toNat ≤ 255 * 255 := Nat.mul_le_mul (by omega) (by omega)
  rw [← Int.natCast_mul, BitVec.ofInt_natCast, BitVec.toNat_mul, BitVec.toNat_ofNat,
    BitVec.toNat_setWidth, BitVec.toNat_setWidth]
  have e1 : a.toBitVec.toNat = a.toNat := rfl
  have e2 : b.toBitVec.toNat = b.toNat := rfl
  rw [e1, e2, Nat.mod_eq_of_lt (show a.toNat < 2 ^ 32 by omega),
    Nat.mod_eq_of_lt (show b.toNat < 2 ^ 32 by omega)]

theorem mul_bytes16 (a b : UInt8) :
    (a.toBitVec.setWidth 16).setWidth 32 * (b.toBitVec.setWidth 16).setWidth 32 =
      BitVec.ofInt 32 ((a.toNat : Int) * (b.toNat : Int)) := by
  have e : ∀ x : BitVec 8, (x.setWidth 16).setWidth 32 = x.setWidth 32 := by
    intro x
    apply BitVec.eq_of_toNat_eq
    have := x.isLt
    rw [BitVec.toNat_setWidth, BitVec.toNat_setWidth, BitVec.toNat_setWidth]
    omega
  rw [e, e, mul_bytes]

/-! ## `NEON_64_Kernel12x8Depth2` -/

/-- The register of the block with first row `row` in column `col`. -/
def reg64 (row col : Nat) : Nat := 8 + 2 * row + col

/-- What the kernel does to an accumulator: `a` holds the left-hand cell, `b` the right-hand cell. -/
def tile64 (a b : VReg) (k : Nat) (acc : VReg) : VReg :=
  ofS fun i => (ofS fun i => acc.s i + ((ofH fun i => (a i).setWidth 16).h i).setWidth 32 *
      ((ofH fun i => (b i).setWidth 16).h k).setWidth 32).s i +
    ((ofH fun i => (a i).setWidth 16).h (4 + i)).setWidth 32 *
      ((ofH fun i => (b i).setWidth 16).h (4 + k)).setWidth 32

theorem neon64Loop_x (m : Mem) (s : St) (q c : Nat) (hq : q < 3) (hc : c < 8) :
    (exec m neon64Loop s).x (8 + 8 * q + c) =
      tile64 (s.x (2 + q)) (s.x (5 + c / 4)) (c % 4) (s.x (8 + 8 * q + c)) := by
  interval_cases q <;> interval_cases c <;> rfl

theorem neon64Last_x (m : Mem) (s : St) (q c : Nat) (hq : q < 3) (hc : c < 8) :
    (exec m neon64Last s).x (8 + 8 * q + c) =
      tile64 (s.x (2 + q)) (s.x (5 + c / 4)) (c % 4) (s.x (8 + 8 * q + c)) := by
  interval_cases q <;> interval_cases c <;> rfl

/-- The cells at `lp` and `rp` are in the registers, the pointers are past them. -/
structure Ready64 (m : Mem) (lp rp : Nat) (s : St) : Prop where
  lpos : s.lp = lp + 24
  rpos : s.rp = rp + 16
  a : ∀ q j, q < 3 → j < 8 → s.x (2 + q) j = (m.lhs.get (lp + 8 * q + j)).toBitVec
  b : ∀ p j, p < 2 → j < 8 → s.x (5 + p) j = (m.rhs.get (rp + 8 * p + j)).toBitVec

theorem tile64_lane {m : Mem} {lp rp : Nat} {s : St} (h : Ready64 m lp rp s) {q c i : Nat}
    (hq : q < 3) (hc : c < 8) (hi : i < 4) (acc : VReg) :
    (tile64 (s.x (2 + q)) (s.x (5 + c / 4)) (c % 4) acc).s i =
      acc.s i + BitVec.ofInt 32 (cellSum neon64Format m lp rp (4 * q + i) c) := by
  have a0 : runCoeff neon64Format.lhs m.lhs lp (4 * q + i) 0 =
      ((m.lhs.get (lp + 8 * q + i)).toNat : Int) := by
    rw [show (0 : Nat) = neon64Format.lhs.cd * 0 + 0 from rfl,
      show 4 * q + i = neon64Format.lhs.cw * q + i from rfl, runCoeff_at hi (by decide)]
    show ((m.lhs.get (lp + (0 * 3 + q) * 8 + (i + 0 * 4))).toNat : Int) = _
    rw [show lp + (0 * 3 + q) * 8 + (i + 0 * 4) = lp + 8 * q + i by omega]
  have a1 : runCoeff neon64Format.lhs m.lhs lp (4 * q + i) 1 =
      ((m.lhs.get (lp + 8 * q + (4 + i))).toNat : Int) := by
    rw [show (1 : Nat) = neon64Format.lhs.cd * 0 + 1 from rfl,
      show 4 * q + i = neon64Format.lhs.cw * q + i from rfl, runCoeff_at hi (by decide)]
    show ((m.lhs.get (lp + (0 * 3 + q) * 8 + (i + 1 * 4))).toNat : Int) = _
    rw [show lp + (0 * 3 + q) * 8 + (i + 1 * 4) = lp + 8 * q + (4 + i) by omega]
  have hc4 : c % 4 < 4 := Nat.mod_lt _ (by omega)
  have ec : c = neon64Format.rhs.cw * (c / 4) + c % 4 := by
    show c = 4 * (c / 4) + c % 4
    omega
  have b0 : runCoeff neon64Format.rhs m.rhs rp c 0 =
      ((m.rhs.get (rp + 8 * (c / 4) + c % 4)).toNat : Int) := by
    conv_lhs => rw [ec, show (0 : Nat) = neon64Format.rhs.cd * 0 + 0 from rfl]
    rw [runCoeff_at hc4 (by decide)]
    show ((m.rhs.get (rp + (0 * 2 + c / 4) * 8 + (c % 4 + 0 * 4))).toNat : Int) = _
    rw [show rp + (0 * 2 + c / 4) * 8 + (c % 4 + 0 * 4) = rp + 8 * (c / 4) + c % 4 by omega]
  have b1 : runCoeff neon64Format.rhs m.rhs rp c 1 =
      ((m.rhs.get (rp + 8 * (c / 4) + (4 + c % 4))).toNat : Int) := by
    conv_lhs => rw [ec, show (1 : Nat) = neon64Format.rhs.cd * 0 + 1 from rfl]
    rw [runCoeff_at hc4 (by decide)]
    show ((m.rhs.get (rp + (0 * 2 + c / 4) * 8 + (c % 4 + 1 * 4))).toNat : Int) = _
    rw [show rp + (0 * 2 + c / 4) * 8 + (c % 4 + 1 * 4) = rp + 8 * (c / 4) + (4 + c % 4) by omega]
  unfold tile64
  simp only [s_ofS, h_ofH]
  rw [h.a q i hq (by omega), h.a q (4 + i) hq (by omega), h.b (c / 4) (c % 4) (by omega) (by omega),
    h.b (c / 4) (4 + c % 4) (by omega) (by omega), mul_bytes16, mul_bytes16, BitVec.add_assoc,
    ← BitVec.ofInt_add, ← a0, ← a1, ← b0, ← b1]
  congr 2
  show _ = sumTo (1 + 1) _
  rw [sumTo_succ, sumTo_succ]
  show _ = (0 : Int) + _ + _
  rw [Int.zero_add]

theorem neon64_direct : Direct neon64Format reg64 neon64Pre neon64Loop neon64Last Ready64 where
  pre := by
    intro m s hok hl hr
    have hl : s.lp + 24 ≤ m.lhs.size := hl
    have hr : s.rp + 16 ≤ m.rhs.size := hr
    refine ⟨⟨rfl, rfl, ?_, ?_⟩, ?_, ?_⟩
    · intro q j hq hj; interval_cases q <;> interval_cases j <;> rfl
    · intro q j hq hj; interval_cases q <;> interval_cases j <;> rfl
    · rw [exec_ok]
      refine ⟨hok, ?_⟩
      simp only [okOf, neon64Pre, ld1_8b, and_true]; omega
    · intro q c hq hc
      have hq : 4 * q < 12 := hq
      have hq : q < 3 := by omega
      have hc : c < 8 := hc
      interval_cases q <;> interval_cases c <;> rfl
  loop := by
    intro m lp rp s h hok hl hr
    have hl : lp + 2 * 24 ≤ m.lhs.size := hl
    have hr : rp + 2 * 16 ≤ m.rhs.size := hr
    have e1 := h.lpos
    have e2 := h.rpos
    refine ⟨⟨?_, ?_, ?_, ?_⟩, ?_, ?_⟩
    · show s.lp + 8 + 8 + 8 = lp + 24 + 24; omega
    · show s.rp + 8 + 8 = rp + 16 + 16; omega
    · intro q j hq hj
      show _ = (m.lhs.get (lp + 24 + 8 * q + j)).toBitVec
      rw [← e1]
      interval_cases q <;> interval_cases j <;> rfl
    · intro q j hq hj
      show _ = (m.rhs.get (rp + 16 + 8 * q + j)).toBitVec
      rw [← e2]
      interval_cases q <;> interval_cases j <;> rfl
    · rw [exec_ok]
      refine ⟨hok, ?_⟩
      simp only [okOf, neon64Loop, ld1_8b, uxtl, umlal, umlal2, and_true]; omega
    · intro q c i hq hc hi
      have hq : 4 * q < 12 := hq
      have e : reg64 (4 * q) c = 8 + 8 * q + c := by unfold reg64; omega
      rw [e, neon64Loop_x m s q c (by omega) hc]
      exact tile64_lane h (by omega) hc hi _
  last := by
    intro m lp rp s h hok hl hr
    refine ⟨?_, ?_⟩
    · rw [exec_ok]; exact ⟨hok, trivial⟩
    · intro q c i hq hc hi
      have hq : 4 * q < 12 := hq
      have e : reg64 (4 * q) c = 8 + 8 * q + c := by unfold reg64; omega
      rw [e, neon64Last_x m s q c (by omega) hc]
      exact tile64_lane h (by omega) hc hi _

/-- The blocks of a kernel with 12 rows and 8 columns. -/
theorem tilesIn_12x8 {tiles : List Tile} (reg : Nat → Nat → Nat)
    (hn : (tiles.map Tile.reg).Nodup)
    (h1 : ∀ t ∈ tiles, t.row % 4 = 0 ∧ t.row < 12 ∧ t.col < 8 ∧ t.reg = reg t.row t.col)
    (h2 : ∀ q : Fin 3, ∀ c : Fin 8, ⟨reg (4 * q) c, 4 * q, c⟩ ∈ tiles) :
    TilesIn 12 8 reg tiles where
  covers :=
    { nodup := hn
      inside := by
        intro t ht
        obtain ⟨a, b, c, -⟩ := h1 t ht
        exact ⟨by omega, c, Nat.dvd_of_mod_eq_zero a⟩
      find := by
        intro r c hr hc
        exact ⟨_, h2 ⟨r / 4, by omega⟩ ⟨c, hc⟩, by dsimp only; omega, rfl⟩
      unique := by
        intro t ht t' ht' e1 e2
        rw [(h1 t ht).2.2.2, (h1 t' ht').2.2.2, e1, e2] }
  reg := fun t ht => (h1 t ht).2.2.2

theorem neon64Kernel_ok (x0 : Nat → VReg) :
    KernelOk .wrap neon64Format 16 intNeeds (neon64Kernel x0) :=
  kernelLoadFirst_ok (F := neon64Format) (regOf := reg64) (by omega) (by decide)
    (tilesIn_12x8 (tiles := neon64Loads) reg64 (by decide) (by decide) (by decide))
    (tilesIn_12x8 (tiles := neon64Stores) reg64 (by decide) (by decide) (by decide))
    (fun m s => ⟨rfl, rfl, rfl⟩)
    (by
      intro m s q c i hq hc hi
      have hq : 4 * q < 12 := hq
      have hq : q < 3 := by omega
      have hc : c < 8 := hc
      interval_cases q <;> interval_cases c <;> exact zero_s i)
    (neon64_direct.mainAdds (w := 64) (by omega) rfl rfl (by decide) (by decide)) x0

/-! ## `NEON_64_Kernel12x8Depth4_dotprod` -/

theorem dotprodLoop_eq : dotprodLoop =
    [udot 8 2 0 0, udot 9 2 0 1, ld1_16b 1 .rhs, udot 10 2 0 2, udot 11 2 0 3, ld1_16b 3 .lhs,
     udot 12 2 1 0, udot 13 2 1 1, ld1_16b 4 .lhs, udot 14 2 1 2, udot 15 2 1 3, ld1_16b 2 .lhs,
     udot 16 3 0 0, udot 17 3 0 1, udot 18 3 0 2, udot 19 3 0 3, udot 20 3 1 0, udot 21 3 1 1,
     udot 22 3 1 2, udot 23 3 1 3, udot 24 4 0 0, udot 25 4 0 1, udot 26 4 0 2, udot 27 4 0 3,
     ld1_16b 0 .rhs, udot 28 4 1 0, udot 29 4 1 1, udot 30 4 1 2, udot 31 4 1 3] := rfl

theorem dotprodLast_eq : dotprodLast =
    [udot 8 2 0 0, udot 9 2 0 1, ld1_16b 1 .rhs, udot 10 2 0 2, udot 11 2 0 3, ld1_16b 3 .lhs,
     udot 12 2 1 0, udot 13 2 1 1, ld1_16b 4 .lhs, udot 14 2 1 2, udot 15 2 1 3,
     udot 16 3 0 0, udot 17 3 0 1, udot 18 3 0 2, udot 19 3 0 3, udot 20 3 1 0, udot 21 3 1 1,
     udot 22 3 1 2, udot 23 3 1 3, udot 24 4 0 0, udot 25 4 0 1, udot 26 4 0 2, udot 27 4 0 3,
     udot 28 4 1 0, udot 29 4 1 1, udot 30 4 1 2, udot 31 4 1 3] := rfl

/-- What `udot` does to an accumulator. -/
def tileDot (a b : VReg) (k : Nat) (acc : VReg) : VReg :=
  ofS fun i => acc.s i +
    ((a (4 * i)).setWidth 32 * (b (4 * k)).setWidth 32 +
     (a (4 * i + 1)).setWidth 32 * (b (4 * k + 1)).setWidth 32 +
     (a (4 * i + 2)).setWidth 32 * (b (4 * k + 2)).setWidth 32 +
     (a (4 * i + 3)).setWidth 32 * (b (4 * k + 3)).setWidth 32)

/-- The left-hand cell `q`: the first is in a register, the others are loaded when needed. -/
def dotA (m : Mem) (s : St) (q : Nat) : VReg :=
  if q = 0 then s.x 2 else bytes m.lhs (s.lp + 16 * (q - 1) + 0)

/-- The right-hand cell `p`. -/
def dotB (m : Mem) (s : St) (p : Nat) : VReg := if p = 0 then s.x 0 else bytes m.rhs (s.rp + 0)

theorem dotprodLoop_x (m : Mem) (s : St) (q c : Nat) (hq : q < 3) (hc : c < 8) :
    (exec m dotprodLoop s).x (8 + 8 * q + c) =
      tileDot (dotA m s q) (dotB m s (c / 4)) (c % 4) (s.x (8 + 8 * q + c)) := by
  rw [dotprodLoop_eq]
  interval_cases q <;> interval_cases c <;> rfl

theorem dotprodLast_x (m : Mem) (s : St) (q c : Nat) (hq : q < 3) (hc : c < 8) :
    (exec m dotprodLast s).x (8 + 8 * q + c) =
      tileDot (dotA m s q) (dotB m s (c / 4)) (c % 4) (s.x (8 + 8 * q + c)) := by
  rw [dotprodLast_eq]
  interval_cases q <;> interval_cases c <;> rfl

/-- The first left-hand and the first right-hand cell are in registers, the pointers are past them. -/
structure ReadyDot (m : Mem) (lp rp : Nat) (s : St) : Prop where
  lpos : s.lp = lp + 16
  rpos : s.rp = rp + 16
  a : s.x 2 = bytes m.lhs lp
  b : s.x 0 = bytes m.rhs rp

theorem ReadyDot.dotA {m : Mem} {lp rp : Nat} {s : St} (h : ReadyDot m lp rp s) (q : Nat) :
    dotA m s q = bytes m.lhs (lp + 16 * q) := by
  unfold Vec.dotA
  split
  · next h0 => rw [h.a, h0, Nat.mul_zero, Nat.add_zero]
  · rw [h.lpos, show lp + 16 + 16 * (q - 1) + 0 = lp + 16 * q by omega]

theorem ReadyDot.dotB {m : Mem} {lp rp : Nat} {s : St} (h : ReadyDot m lp rp s) {p : Nat} (hp : p < 2) :
    dotB m s p = bytes m.rhs (rp + 16 * p) := by
  unfold Vec.dotB
  split
  · next h0 => rw [h.b, h0, Nat.mul_zero, Nat.add_zero]
  · rw [h.rpos, show rp + 16 + 0 = rp + 16 * p by omega]

theorem tileDot_lane {m : Mem} {lp rp : Nat} {s : St} (h : ReadyDot m lp rp s) {q c i : Nat}
    (hc : c < 8) (hi : i < 4) (acc : VReg) :
    (tileDot (dotA m s q) (dotB m s (c / 4)) (c % 4) acc).s i =
      acc.s i + BitVec.ofInt 32 (cellSum dotprodFormat m lp rp (4 * q + i) c) := by
  have ha : ∀ e, e < 4 → runCoeff dotprodFormat.lhs m.lhs lp (4 * q + i) e =
      ((m.lhs.get (lp + 16 * q + (4 * i + e))).toNat : Int) := by
    intro e he
    have := runCoeff_at (f := dotprodFormat.lhs) (b := m.lhs) (pos := lp) (q := q) (i := i) (u := 0)
      (e := e) hi he
    rw [Nat.mul_zero, Nat.zero_add] at this
    refine this.trans ?_
    show ((m.lhs.get (lp + (0 * 3 + q) * 16 + (e + i * 4))).toNat : Int) = _
    rw [show lp + (0 * 3 + q) * 16 + (e + i * 4) = lp + 16 * q + (4 * i + e) by omega]
  have hb : ∀ e, e < 4 → runCoeff dotprodFormat.rhs m.rhs rp c e =
      ((m.rhs.get (rp + 16 * (c / 4) + (4 * (c % 4) + e))).toNat : Int) := by
    intro e he
    have := runCoeff_at (f := dotprodFormat.rhs) (b := m.rhs) (pos := rp) (q := c / 4) (i := c % 4)
      (u := 0) (e := e) (Nat.mod_lt _ (by decide)) he
    rw [Nat.mul_zero, Nat.zero_add, show dotprodFormat.rhs.cw * (c / 4) + c % 4 = c from
      Nat.div_add_mod c 4] at this
    refine this.trans ?_
    show ((m.rhs.get (rp + (0 * 2 + c / 4) * 16 + (e + c % 4 * 4))).toNat : Int) = _
    rw [show rp + (0 * 2 + c / 4) * 16 + (e + c % 4 * 4) =
      rp + 16 * (c / 4) + (4 * (c % 4) + e) by omega]
  unfold tileDot
  rw [s_ofS, h.dotA, h.dotB (by omega)]
  unfold bytes
  have h0 := ha 0 (by omega)
  have g0 := hb 0 (by omega)
  rw [Nat.add_zero] at h0 g0
  rw [mul_bytes, mul_bytes, mul_bytes, mul_bytes, ← BitVec.ofInt_add, ← BitVec.ofInt_add,
    ← BitVec.ofInt_add, ← h0, ← ha 1 (by omega), ← ha 2 (by omega), ← ha 3 (by omega),
    ← g0, ← hb 1 (by omega), ← hb 2 (by omega), ← hb 3 (by omega)]
  congr 2
  show _ = sumTo (3 + 1) _
  rw [sumTo_succ, sumTo_succ, sumTo_succ, sumTo_succ]
  show _ = (0 : Int) + _ + _ + _ + _
  rw [Int.zero_add]

theorem dotprod_direct :
    Direct dotprodFormat reg64 dotprodPre dotprodLoop dotprodLast ReadyDot where
  pre := by
    intro m s hok hl hr
    have hl : s.lp + 48 ≤ m.lhs.size := hl
    have hr : s.rp + 32 ≤ m.rhs.size := hr
    refine ⟨⟨rfl, rfl, rfl, rfl⟩, ?_, ?_⟩
    · rw [exec_ok]
      refine ⟨hok, ?_⟩
      simp only [okOf, dotprodPre, ld1_16b, and_true]; omega
    · intro q c hq hc
      have hq : 4 * q < 12 := hq
      have hq : q < 3 := by omega
      have hc : c < 8 := hc
      interval_cases q <;> interval_cases c <;> rfl
  loop := by
    intro m lp rp s h hok hl hr
    have hl : lp + 2 * 48 ≤ m.lhs.size := hl
    have hr : rp + 2 * 32 ≤ m.rhs.size := hr
    have e1 := h.lpos
    have e2 := h.rpos
    refine ⟨⟨?_, ?_, ?_, ?_⟩, ?_, ?_⟩
    · rw [dotprodLoop_eq]; show s.lp + 16 + 16 + 16 = lp + 48 + 16; omega
    · rw [dotprodLoop_eq]; show s.rp + 16 + 16 = rp + 32 + 16; omega
    · rw [dotprodLoop_eq]
      show bytes m.lhs (s.lp + 16 + 16 + 0) = bytes m.lhs (lp + 48)
      rw [e1]
    · rw [dotprodLoop_eq]
      show bytes m.rhs (s.rp + 16 + 0) = bytes m.rhs (rp + 32)
      rw [e2]
    · rw [exec_ok, dotprodLoop_eq]
      refine ⟨hok, ?_⟩
      simp only [okOf, ld1_16b, udot, and_true]; omega
    · intro q c i hq hc hi
      have hq : 4 * q < 12 := hq
      have e : reg64 (4 * q) c = 8 + 8 * q + c := by unfold reg64; omega
      rw [e, dotprodLoop_x m s q c (by omega) hc]
      exact tileDot_lane h hc hi _
  last := by
    intro m lp rp s h hok hl hr
    have hl : lp + 48 ≤ m.lhs.size := hl
    have hr : rp + 32 ≤ m.rhs.size := hr
    have e1 := h.lpos
    have e2 := h.rpos
    refine ⟨?_, ?_⟩
    · rw [exec_ok, dotprodLast_eq]
      refine ⟨hok, ?_⟩
      simp only [okOf, ld1_16b, udot, and_true]; omega
    · intro q c i hq hc hi
      have hq : 4 * q < 12 := hq
      have e : reg64 (4 * q) c = 8 + 8 * q + c := by unfold reg64; omega
      rw [e, dotprodLast_x m s q c (by omega) hc]
      exact tileDot_lane h hc hi _

theorem dotprodKernel_ok (x0 : Nat → VReg) :
    KernelOk .wrap dotprodFormat 16 intNeeds (dotprodKernel x0) :=
  kernelLoadFirst_ok (F := dotprodFormat) (regOf := reg64) (by omega) (by decide)
    (tilesIn_12x8 (tiles := dotprodLoads) reg64 (by decide) (by decide) (by decide))
    (tilesIn_12x8 (tiles := dotprodStores) reg64 (by decide) (by decide) (by decide))
    (fun m s => ⟨rfl, rfl, rfl⟩)
    (by
      intro m s q c i hq hc hi
      have hq : 4 * q < 12 := hq
      have hq : q < 3 := by omega
      have hc : c < 8 := hc
      interval_cases q <;> interval_cases c <;> exact zero_s i)
    (dotprod_direct.mainAdds (w := 32) (by omega) rfl rfl (by decide) (by decide)) x0

end Gemmlowp.Vec
