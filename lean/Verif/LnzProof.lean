import Verif.Vec128Proof
/-!
# Sums of products of signed bytes in 16 bits

What the kernels for `Int8Operands_LhsNonzero` have in common: products of two pairs of signed bytes
are added in 16 bits, which is exact unless both bytes of a pair are −128.
-/
namespace Gemmlowp.Vec

theorem kval_int8 {f : SideFormat} (h : f.scalar = .int8) (b : UInt8) : f.kval b = b.toBitVec.toInt := by
  unfold SideFormat.kval
  rw [h]
  dsimp only
  rw [BitVec.toInt_eq_toNat_cond]
  have e : b.toBitVec.toNat = b.toNat := rfl
  rw [e]
  split <;> split <;> omega

theorem toInt_byte_bound (a : BitVec 8) : -128 ≤ a.toInt ∧ a.toInt ≤ 127 := by
  have := BitVec.le_toInt a
  have := BitVec.toInt_lt (x := a)
  omega

theorem prod_le (x y : Int) (hx : -128 ≤ x ∧ x ≤ 127) (hy : -128 ≤ y ∧ y ≤ 127)
    (h : ¬ (x = -128 ∧ y = -128)) : -16256 ≤ x * y ∧ x * y ≤ 16256 := by
  have hb : ∀ x y : Int, -127 ≤ x → x ≤ 127 → -128 ≤ y → y ≤ 127 → -16256 ≤ x * y ∧ x * y ≤ 16256 := by
    intro x y h1 h2 h3 h4
    have a1 : 0 ≤ (127 - x) * (128 - y) := Int.mul_nonneg (by omega) (by omega)
    have a2 : 0 ≤ (127 + x) * (128 + y) := Int.mul_nonneg (by omega) (by omega)
    have a3 : 0 ≤ (127 - x) * (128 + y) := Int.mul_nonneg (by omega) (by omega)
    have a4 : 0 ≤ (127 + x) * (128 - y) := Int.mul_nonneg (by omega) (by omega)
    rw [Int.sub_mul, Int.mul_sub, Int.mul_sub] at a1
    rw [Int.add_mul, Int.mul_add, Int.mul_add] at a2
    rw [Int.sub_mul, Int.mul_add, Int.mul_add] at a3
    rw [Int.add_mul, Int.mul_sub, Int.mul_sub] at a4
    omega
  by_cases hx0 : x = -128
  · have := hb y x (by omega) (by omega) (by omega) (by omega)
    rw [Int.mul_comm]
    exact this
  · exact hb x y (by omega) (by omega) (by omega) (by omega)

/-- Two products fit in 16 bits. -/
theorem pair_exact (a b a' b' : BitVec 8) (h : ¬ (a.toInt = -128 ∧ b.toInt = -128))
    (h' : ¬ (a'.toInt = -128 ∧ b'.toInt = -128)) :
    (b.signExtend 16 * a.signExtend 16 + b'.signExtend 16 * a'.signExtend 16).signExtend 32 =
      BitVec.ofInt 32 (a.toInt * b.toInt + a'.toInt * b'.toInt) := by
  have p1 := prod_le _ _ (toInt_byte_bound a) (toInt_byte_bound b) h
  have p2 := prod_le _ _ (toInt_byte_bound a') (toInt_byte_bound b') h'
  have e : b.signExtend 16 * a.signExtend 16 + b'.signExtend 16 * a'.signExtend 16 =
      BitVec.ofInt 16 (a.toInt * b.toInt + a'.toInt * b'.toInt) := by
    unfold BitVec.signExtend
    rw [← BitVec.ofInt_mul, ← BitVec.ofInt_mul, ← BitVec.ofInt_add, Int.mul_comm b.toInt,
      Int.mul_comm b'.toInt]
  rw [e]
  unfold BitVec.signExtend
  rw [BitVec.toInt_ofInt]
  congr 1
  rw [Int.bmod_def]
  split <;> omega

/-- The sum of the 32-bit lanes. -/
def total (v : VReg) : BitVec 32 := v.s 0 + v.s 1 + (v.s 2 + v.s 3)

/-- `sadalp`: add the 16-bit lanes in pairs. -/
def sadalpV (acc p : VReg) : VReg :=
  ofS fun i => acc.s i + ((p.h (2 * i)).signExtend 32 + (p.h (2 * i + 1)).signExtend 32)

/-- The two products per 16-bit lane, of bytes that are eight apart. -/
def prodV (b a : VReg) : VReg :=
  ofH fun i => (ofH fun i => (b i).signExtend 16 * (a i).signExtend 16).h i +
    (b (8 + i)).signExtend 16 * (a (8 + i)).signExtend 16

/-- One group of cells of 4 rows and 16 levels in width-major order. -/
theorem cellSum_16 {F : KernelFormat} {w : Nat} 
    (hl : F.lhs = { cw := 4, cd := 16, order := .widthMajor, cells := 1, scalar := .int8 })
    (hr : F.rhs = { cw := w, cd := 16, order := .widthMajor, cells := 1, scalar := .int8 })
    (m : Mem) (lp rp r c : Nat) (hr4 : r < 4) (hcw : c < w) :
    (∀ e, e < 16 → runCoeff F.lhs m.lhs lp r e = (bytes m.lhs (lp + 16 * r) e).toInt ∧
      runCoeff F.rhs m.rhs rp c e = (bytes m.rhs (rp + 16 * c) e).toInt) ∧
    cellSum F m lp rp r c = sumTo 16 (fun e =>
      (bytes m.lhs (lp + 16 * r) e).toInt * (bytes m.rhs (rp + 16 * c) e).toInt) := by
  have hco : ∀ e, e < 16 → runCoeff F.lhs m.lhs lp r e = (bytes m.lhs (lp + 16 * r) e).toInt ∧
      runCoeff F.rhs m.rhs rp c e = (bytes m.rhs (rp + 16 * c) e).toInt := by
    intro e he
    constructor
    · have := runCoeff_at (f := F.lhs) (b := m.lhs) (pos := lp) (q := 0) (i := r) (u := 0) (e := e)
        (by rw [hl]; exact hr4) (by rw [hl]; exact he)
      rw [Nat.mul_zero, Nat.zero_add, Nat.mul_zero, Nat.zero_add, kval_int8 (by rw [hl])] at this
      rw [this, hl]
      show (m.lhs.get (lp + (0 * 1 + 0) * 64 + (e + r * 16))).toBitVec.toInt =
        (m.lhs.get (lp + 16 * r + e)).toBitVec.toInt
      rw [show lp + (0 * 1 + 0) * 64 + (e + r * 16) = lp + 16 * r + e by omega]
    · have := runCoeff_at (f := F.rhs) (b := m.rhs) (pos := rp) (q := 0) (i := c) (u := 0) (e := e)
        (by rw [hr]; exact hcw) (by rw [hr]; exact he)
      rw [Nat.mul_zero, Nat.zero_add, Nat.mul_zero, Nat.zero_add, kval_int8 (by rw [hr])] at this
      rw [this, hr]
      show (m.rhs.get (rp + (0 * 1 + 0) * _ + (e + c * 16))).toBitVec.toInt =
        (m.rhs.get (rp + 16 * c + e)).toBitVec.toInt
      rw [Nat.zero_mul,
        show rp + 0 + (e + c * 16) = rp + 16 * c + e by omega]
  refine ⟨hco, ?_⟩
  have hkd : F.kDepth = 16 := by unfold KernelFormat.kDepth; rw [hl]
  unfold cellSum
  rw [hkd]
  apply sumTo_congr
  intro e he
  rw [(hco e he).1, (hco e he).2]

theorem total_add (x0 x1 x2 x3 z0 z1 z2 z3 : BitVec 32) :
    x0 + z0 + (x1 + z1) + (x2 + z2 + (x3 + z3)) = x0 + x1 + (x2 + x3) + (z0 + z1 + z2 + z3) := by
  ac_rfl

theorem total_step {acc a b : VReg} (h : ∀ e, e < 16 → ¬ ((a e).toInt = -128 ∧ (b e).toInt = -128)) :
    total (sadalpV acc (prodV b a)) = total acc +
      BitVec.ofInt 32 (sumTo 16 (fun e => (a e).toInt * (b e).toInt)) := by
  have hh : ∀ i, i < 8 → ((prodV b a).h i).signExtend 32 =
      BitVec.ofInt 32 ((a i).toInt * (b i).toInt + (a (8 + i)).toInt * (b (8 + i)).toInt) := by
    intro i hi
    unfold prodV
    rw [h_ofH, h_ofH]
    exact pair_exact _ _ _ _ (h i (by omega)) (h (8 + i) (by omega))
  have es : sumTo 16 (fun e => (a e).toInt * (b e).toInt) =
      (((a 0).toInt * (b 0).toInt + (a (8 + 0)).toInt * (b (8 + 0)).toInt) +
       ((a 1).toInt * (b 1).toInt + (a (8 + 1)).toInt * (b (8 + 1)).toInt)) +
      (((a 2).toInt * (b 2).toInt + (a (8 + 2)).toInt * (b (8 + 2)).toInt) +
       ((a 3).toInt * (b 3).toInt + (a (8 + 3)).toInt * (b (8 + 3)).toInt)) +
      (((a 4).toInt * (b 4).toInt + (a (8 + 4)).toInt * (b (8 + 4)).toInt) +
       ((a 5).toInt * (b 5).toInt + (a (8 + 5)).toInt * (b (8 + 5)).toInt)) +
      (((a 6).toInt * (b 6).toInt + (a (8 + 6)).toInt * (b (8 + 6)).toInt) +
       ((a 7).toInt * (b 7).toInt + (a (8 + 7)).toInt * (b (8 + 7)).toInt)) := by
    show sumTo (15 + 1) _ = _
    simp only [sumTo, Nat.reduceAdd]
    omega
  unfold total sadalpV
  simp only [s_ofS]
  rw [hh _ (by omega), hh _ (by omega), hh _ (by omega), hh _ (by omega), hh _ (by omega),
    hh _ (by omega), hh _ (by omega), hh _ (by omega), es, ← BitVec.ofInt_add, ← BitVec.ofInt_add,
    ← BitVec.ofInt_add, ← BitVec.ofInt_add, total_add, ← BitVec.ofInt_add, ← BitVec.ofInt_add,
    ← BitVec.ofInt_add]

end Gemmlowp.Vec
