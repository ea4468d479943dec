import Verif.SimdProof3
/-!
# WebAssembly and MSA
-/
namespace Gemmlowp.Simd

open Isa Fx Spec

variable {n w : Nat}

/-! ## NEON: division by a vector of exponents -/

theorem neon_rdpotVec (hw : 8 ≤ w) (x e : Reg n w) (i : Fin n) (h1 : (e i).toInt < w)
    (h0 : 0 ≤ (e i).toInt) (h2 : (e i).toInt ≤ 31) :
    Fx.rdpot .wrap (x i) (e i).toInt = .ok (Neon.rdpotVec x e i) := by
  obtain ⟨k, hk⟩ : ∃ k : Nat, (e i).toInt = k := ⟨(e i).toInt.toNat, by omega⟩
  rw [hk, neon_rdpot hw x (by omega) (by omega) i]
  congr 1
  have he : -(e i) = BitVec.ofInt w (-(k : Int)) := by
    rw [ofInt_neg', ← hk, BitVec.ofInt_toInt]
  have hv : (vneg e) i = Neon.dupInt (-(k : Int)) i := he
  unfold Neon.rdpot Neon.rdpotVec vrshl map2
  dsimp only
  unfold adds shrN vand map2 map1
  dsimp only
  rw [hv]

/-! ## WebAssembly -/

theorem sign_ext (x : BitVec 32) : (x.sshiftRight 31 ++ x : BitVec 64) = BitVec.ofInt 64 x.toInt := by
  have hx : -2147483648 ≤ x.toInt ∧ x.toInt < 2147483648 := by
    have h1 := BitVec.toInt_lt (x := x)
    have h2 := BitVec.le_toInt x
    norm_num at h1 h2
    exact ⟨h2, h1⟩
  apply BitVec.eq_of_toNat_eq
  rw [BitVec.toNat_append, sign_bits (w := 32) (by decide), BitVec.toNat_ofInt, BitVec.toNat_ofInt,
    ← Nat.shiftLeft_add_eq_or_of_lt x.isLt, Nat.shiftLeft_eq]
  have := BitVec.toInt_eq_toNat_cond x
  have hlt := x.isLt
  norm_num at *
  split at this <;> split <;> omega

theorem prod32_bound {x y : Int} (hx : -2147483648 ≤ x ∧ x < 2147483648)
    (hy : -2147483648 ≤ y ∧ y < 2147483648) : -4611686016279904256 ≤ x * y := by
  by_cases hxn : 0 ≤ x
  · have h1 : x * (-2147483648) ≤ x * y := Int.mul_le_mul_of_nonneg_left (by omega) hxn
    omega
  · by_cases hyn : 0 ≤ y
    · have : (-2147483648) * y ≤ x * y := Int.mul_le_mul_of_nonneg_right (by omega) hyn
      omega
    · have := Int.mul_nonneg (a := -x) (b := -y) (by omega) (by omega)
      rw [Int.neg_mul_neg] at this; omega

theorem q64_add (a b : Reg 4 32) (j : Fin 4) : q64 (add64 a b) j = q64 a j + q64 b j := by
  unfold add64
  rw [q64_ofQ (by decide)]
  intro i j hij; unfold q64; rw [hij]

theorem q64_mul (a b : Reg 4 32) (j : Fin 4) : q64 (mul64 a b) j = q64 a j * q64 b j := by
  unfold mul64
  rw [q64_ofQ (by decide)]
  intro i j hij; unfold q64; rw [hij]

theorem q64_splat (x : BitVec 64) (j : Fin 4) : q64 (splat64 x) j = x := by
  unfold splat64
  rw [q64_ofQ (by decide)]
  intro _ _ _; rfl

/-- The high half of a doubled and rounded product. -/
theorem wasm_high (p q : Reg 4 32) (j : Fin 4) (hj : j.val % 2 = 1) (A B : Int)
    (hp : q64 p j = BitVec.ofInt 64 A) (hq : q64 q j = BitVec.ofInt 64 B) :
    add64 (add64 (mul64 p q) (mul64 p q)) (splat64 0x80000000#64) j =
      BitVec.ofInt 32 ((2 * (A * B) + 2147483648) / 4294967296) := by
  unfold add64
  unfold ofQ
  dsimp only
  rw [if_neg (by omega)]
  show (q64 (add64 (mul64 p q) (mul64 p q)) j + q64 (splat64 0x80000000#64) j).extractLsb' 32 32 = _
  rw [q64_add, q64_mul, q64_splat, hp, hq]
  have e : 0x80000000#64 = BitVec.ofInt 64 2147483648 := by decide
  rw [e, ← ofInt_mul', ← ofInt_add', ← ofInt_add', hi32]
  congr 2
  omega

theorem shuf_odd (x y : Reg 4 32) : shuffle4 x y 1 3 5 7 0 = x 1 ∧ shuffle4 x y 1 3 5 7 1 = x 3 ∧
    shuffle4 x y 1 3 5 7 2 = y 1 ∧ shuffle4 x y 1 3 5 7 3 = y 3 := ⟨rfl, rfl, rfl, rfl⟩

theorem shuf_lo (x s : Reg 4 32) : q64 (shuffle4 x s 0 4 1 5) 1 = s 0 ++ x 0 ∧
    q64 (shuffle4 x s 0 4 1 5) 3 = s 1 ++ x 1 := ⟨rfl, rfl⟩
theorem shuf_hi (x s : Reg 4 32) : q64 (shuffle4 x s 2 6 3 7) 1 = s 2 ++ x 2 ∧
    q64 (shuffle4 x s 2 6 3 7) 3 = s 3 ++ x 3 := ⟨rfl, rfl⟩

theorem wasm_lane (a b : Reg 4 32) (i : Fin 4) :
    (let a_sign := shrMod a 31
     let b_sign := shrMod b 31
     let ab_lo := mul64 (shuffle4 a a_sign 0 4 1 5) (shuffle4 b b_sign 0 4 1 5)
     let ab_hi := mul64 (shuffle4 a a_sign 2 6 3 7) (shuffle4 b b_sign 2 6 3 7)
     let nudge_2x := splat64 0x80000000#64
     shuffle4 (add64 (add64 ab_lo ab_lo) nudge_2x) (add64 (add64 ab_hi ab_hi) nudge_2x) 1 3 5 7) i =
      BitVec.ofInt 32 ((2 * ((a i).toInt * (b i).toInt) + 2147483648) / 4294967296) := by
  dsimp only
  have hs : ∀ (c : Reg 4 32) (k : Fin 4), (shrMod c 31 k ++ c k : BitVec 64) = BitVec.ofInt 64 (c k).toInt := by
    intro c k
    have : shrMod c 31 k = (c k).sshiftRight 31 := shrMod_lane c 31 k (by decide)
    rw [this]; exact sign_ext (c k)
  have h01 := wasm_high (shuffle4 a (shrMod a 31) 0 4 1 5) (shuffle4 b (shrMod b 31) 0 4 1 5) 1 (by decide)
    (a 0).toInt (b 0).toInt (by rw [(shuf_lo _ _).1, hs]) (by rw [(shuf_lo _ _).1, hs])
  have h03 := wasm_high (shuffle4 a (shrMod a 31) 0 4 1 5) (shuffle4 b (shrMod b 31) 0 4 1 5) 3 (by decide)
    (a 1).toInt (b 1).toInt (by rw [(shuf_lo _ _).2, hs]) (by rw [(shuf_lo _ _).2, hs])
  have h11 := wasm_high (shuffle4 a (shrMod a 31) 2 6 3 7) (shuffle4 b (shrMod b 31) 2 6 3 7) 1 (by decide)
    (a 2).toInt (b 2).toInt (by rw [(shuf_hi _ _).1, hs]) (by rw [(shuf_hi _ _).1, hs])
  have h13 := wasm_high (shuffle4 a (shrMod a 31) 2 6 3 7) (shuffle4 b (shrMod b 31) 2 6 3 7) 3 (by decide)
    (a 3).toInt (b 3).toInt (by rw [(shuf_hi _ _).2, hs]) (by rw [(shuf_hi _ _).2, hs])
  revert h01 h03 h11 h13
  generalize add64 (add64 (mul64 (shuffle4 a (shrMod a 31) 0 4 1 5) (shuffle4 b (shrMod b 31) 0 4 1 5)) _) _ = X
  generalize add64 (add64 (mul64 (shuffle4 a (shrMod a 31) 2 6 3 7) (shuffle4 b (shrMod b 31) 2 6 3 7)) _) _ = Y
  intro h01 h03 h11 h13
  have hi : i = 0 ∨ i = 1 ∨ i = 2 ∨ i = 3 := by
    have := i.isLt; simp only [Fin.ext_iff]; show i.val = 0 ∨ i.val = 1 ∨ i.val = 2 ∨ i.val = 3; omega
  rcases hi with rfl | rfl | rfl | rfl
  · rw [(shuf_odd X Y).1, h01]
  · rw [(shuf_odd X Y).2.1, h03]
  · rw [(shuf_odd X Y).2.2.1, h11]
  · rw [(shuf_odd X Y).2.2.2, h13]

theorem toInt32 (x : BitVec 32) : -2147483648 ≤ x.toInt ∧ x.toInt < 2147483648 := by
  have h1 := BitVec.toInt_lt (x := x)
  have h2 := BitVec.le_toInt x
  norm_num at h1 h2
  exact ⟨h2, h1⟩

theorem wasm_srdhm32 (a b : Reg 4 32) (i : Fin 4) : Wasm.srdhm32 a b i = Fx.srdhm (a i) (b i) := by
  have hl := wasm_lane a b i
  dsimp only at hl
  unfold Wasm.srdhm32
  show (shuffle4 _ _ 1 3 5 7 i) ^^^ maskOf (shuffle4 _ _ 1 3 5 7 i == 0x80000000#32) = _
  rw [hl]
  by_cases h : (a i).toInt = -2147483648 ∧ (b i).toInt = -2147483648
  · have h2 := (srdhm_spec (w := 32) (by decide) (a i) (b i)).1 (by rw [minW32]; exact h)
    rw [h.1, h.2]
    apply BitVec.eq_of_toInt_eq
    rw [h2]
    decide
  · have h' : ¬ ((a i).toInt = minW 32 ∧ (b i).toInt = minW 32) := by rw [minW32]; exact h
    have e := srdhm_scalar (w := 32) (by decide) h'
    norm_num at e
    rw [e]
    have h1 := (srdhm_spec (w := 32) (by decide) (a i) (b i)).2 h'
    rw [Spec.nearestUp_iff (two_pow_pos' _)] at h1
    norm_num at h1
    have hb := prod32_bound (toInt32 (a i)) (toInt32 (b i))
    have hr := toInt32 (Fx.srdhm (a i) (b i))
    generalize hq : (2 * ((a i).toInt * (b i).toInt) + 2147483648) / 4294967296 = q at *
    have hq1 : -2147483648 < q ∧ q < 2147483648 := by omega
    have hne : (BitVec.ofInt 32 q == 0x80000000#32) = false := by
      rw [beq_eq_false_iff_ne]
      intro hh
      have h2 := congrArg BitVec.toInt hh
      rw [toInt_ofIntW (by decide) (by unfold InW; norm_num; omega), toInt_min32] at h2
      omega
    rw [hne]
    exact BitVec.xor_zero

theorem wasm_rhs32 (a b : Reg n 32) (i : Fin n) :
    Wasm.roundingHalfSum32 a b i = BitVec.ofInt 32 (((a i).toInt + (b i).toInt + 1) / 2) := by
  rw [← rhs32_trick]; rfl

theorem wasm_rhs16 (a b : Reg n 16) (i : Fin n) :
    Wasm.roundingHalfSum16 a b i = BitVec.ofInt 16 (((a i).toInt + (b i).toInt + 1) / 2) := by
  rw [← avg16, ← add_up16, ← add_up16, ← xor_up16, ← xor_up16, ← xor_up16]; rfl

/-- One lane of the widened product. -/
theorem widen16 (a b : BitVec 16) :
    satW 16 (((a.signExtend 32) * (b.signExtend 32) + 0x4000#32).sshiftRight 15).toInt = Fx.srdhm a b := by
  have ha := toInt16 a
  have hb := toInt16 b
  have hp := prod16 ha hb
  have e1 : a.signExtend 32 = BitVec.ofInt 32 a.toInt := rfl
  have e2 : b.signExtend 32 = BitVec.ofInt 32 b.toInt := rfl
  have e3 : (0x4000#32) = BitVec.ofInt 32 16384 := by decide
  rw [e1, e2, e3, ← ofInt_mul', ← ofInt_add', BitVec.toInt_sshiftRight,
    toInt_ofIntW (by decide) (by unfold InW; norm_num; omega), Int.shiftRight_eq_div_pow, satW_eq,
    srdhm16_scalar]
  norm_num
  by_cases h : a.toInt = -32768 ∧ b.toInt = -32768
  · rw [if_pos h, h.1, h.2]; decide
  · rw [if_neg h]
    have hlt : a.toInt * b.toInt < 1073725440 := by
      by_contra hge
      exact h (both_min16 ha hb (by omega))
    congr 1
    apply clamp_id (w := 16)
    unfold InW; norm_num; omega

theorem wasm_srdhm16 (a b : Reg 8 16) (i : Fin 8) : Wasm.srdhm16 a b i = Fx.srdhm (a i) (b i) := by
  match i with
  | 0 => exact widen16 (a 0) (b 0)
  | 1 => exact widen16 (a 1) (b 1)
  | 2 => exact widen16 (a 2) (b 2)
  | 3 => exact widen16 (a 3) (b 3)
  | 4 => exact widen16 (a 4) (b 4)
  | 5 => exact widen16 (a 5) (b 5)
  | 6 => exact widen16 (a 6) (b 6)
  | 7 => exact widen16 (a 7) (b 7)

theorem wasm_select (m a b : BitVec w) : (a &&& m) ||| (b &&& ~~~m) = Fx.selectUsingMask m a b := by
  rw [BitVec.and_comm a, BitVec.and_comm b]; exact select_or _ _ _

theorem wasm_lanes (hw : 1 < w) (rhs srd : Reg n w → Reg n w → Reg n w)
    (h1 : ∀ a b i, 0 ≤ (a i).toInt + (b i).toInt ∨ ((a i).toInt + (b i).toInt) % 2 = 0 →
      rhs a b i = Fx.roundingHalfSum (a i) (b i))
    (h2 : ∀ a b i, ¬ ((a i).toInt = minW w ∧ (b i).toInt = minW w) →
      srd a b i = Fx.srdhm (a i) (b i)) :
    LanesSimple { Wasm.common n w with roundingHalfSum := rhs, srdhm := srd } where
  dup _ _ := rfl
  bitAnd _ _ _ := rfl
  bitOr _ _ _ := rfl
  bitXor _ _ _ := rfl
  bitNot _ _ := rfl
  add a b i := add_lane _ _
  mul a b i := mul_lane _ _
  sub a b i := sub_lane _ _
  neg a i := neg_lane _
  shiftLeft a k i hk hk' h := by rw [shl_lane _ hk' h]; exact congrArg _ (shlMod_lane a k i hk).symm
  shiftRight a k i hk hk' := by rw [shr_lane _ hk']; exact congrArg _ (shrMod_lane a k i hk).symm
  selectUsingMask m a b i _ := wasm_select _ _ _
  maskIfEqual a b i := by unfold Fx.maskIfEqual; rw [maskOf_mask (by omega)]; rfl
  maskIfNotEqual a b i := by unfold Fx.maskIfNotEqual; rw [maskOf_mask (by omega)]; rfl
  maskIfZero a i := beq_zero_mask (by omega) _
  maskIfNonZero a i := by rw [maskNonZero_eq]; rfl
  maskIfGreaterThan a b i := by unfold Fx.maskIfGreaterThan; rw [maskOf_mask (by omega)]; rfl
  maskIfGreaterThanOrEqual a b i := by
    unfold Fx.maskIfGreaterThanOrEqual; rw [maskOf_mask (by omega)]; rfl
  maskIfLessThan a b i := by unfold Fx.maskIfLessThan; rw [maskOf_mask (by omega)]; rfl
  maskIfLessThanOrEqual a b i := by
    unfold Fx.maskIfLessThanOrEqual; rw [maskOf_mask (by omega)]; rfl
  roundingHalfSum := h1
  srdhm := h2
  saturatingAdd _ _ _ _ := rfl

theorem wasm_ops32 : Lanes Wasm.ops32 :=
  gen_complete (by decide) (wasm_lanes (by decide) Wasm.roundingHalfSum32 Wasm.srdhm32
    (fun a b i h => by rw [wasm_rhs32, rhs_scalar h]) (fun a b i _ => wasm_srdhm32 a b i))

theorem wasm_ops16 : Lanes Wasm.ops16 :=
  gen_complete (by decide) (wasm_lanes (by decide) Wasm.roundingHalfSum16 Wasm.srdhm16
    (fun a b i h => by rw [wasm_rhs16, rhs_scalar h]) (fun a b i _ => wasm_srdhm16 a b i))

/-! ## MSA -/

theorem msa_bitNot (a : Reg n w) (i : Fin n) : Msa.bitNot a i = ~~~(a i) := by
  show ~~~(a i ||| a i) = _
  rw [BitVec.or_self]

theorem clamp_double {lo hi x : Int} (hlo : lo ≤ 0) (hhi : 0 ≤ hi) :
    clampTo lo hi (clampTo lo hi x + clampTo lo hi x) = clampTo lo hi (2 * x) := by
  unfold clampTo
  by_cases h1 : x < lo
  · rw [if_pos h1]
    by_cases h2 : lo + lo < lo
    · rw [if_pos h2, if_pos (by omega)]
    · rw [if_neg h2, if_neg (by omega), if_pos (by omega)]; omega
  · rw [if_neg h1]
    by_cases h2 : hi < x
    · rw [if_pos h2, if_neg (by omega)]
      by_cases h3 : hi < hi + hi
      · rw [if_pos h3, if_neg (by omega), if_pos (by omega)]
      · rw [if_neg h3, if_neg (by omega), if_pos (by omega)]; omega
    · rw [if_neg h2, Int.two_mul]

theorem doubleSat_eq (hw : 0 < w) : ∀ (k : Nat) (x : Reg n w) (i : Fin n) (y : Int),
    (x i).toInt = clampTo (minW w) (maxW w) y →
    (Msa.doubleSat k x i).toInt = clampTo (minW w) (maxW w) (y * 2 ^ k) := by
  have hp := two_pow_pos' (w - 1)
  intro k
  induction k with
  | zero => intro x i y h; rw [Int.pow_zero, Int.mul_one]; exact h
  | succ k ih =>
    intro x i y h
    unfold Msa.doubleSat
    rw [ih (adds x x) i (2 * y)]
    · rw [two_pow_succ']; congr 1; ac_rfl
    · show (satW w ((x i).toInt + (x i).toInt)).toInt = _
      rw [satW_toInt hw, h, clamp_double]
      · unfold minW; omega
      · unfold maxW; omega

theorem or_max (hw : 0 < w) {x : BitVec w} (h : x.msb = false) :
    x ||| (BitVec.allOnes w >>> 1) = BitVec.allOnes w >>> 1 := by
  apply BitVec.eq_of_getLsbD_eq
  intro i hi
  rw [BitVec.getLsbD_or, BitVec.getLsbD_ushiftRight]
  by_cases h1 : i = w - 1
  · subst h1
    have : x.getLsbD (w - 1) = false := by rw [← BitVec.msb_eq_getLsbD_last]; exact h
    rw [this, Bool.false_or]
  · have : (BitVec.allOnes w).getLsbD (1 + i) = true := by
      rw [BitVec.getLsbD_allOnes]; simp; omega
    rw [this, Bool.or_true]

theorem max_bits (hw : 0 < w) : BitVec.allOnes w >>> 1 = BitVec.ofInt w (maxW w) := by
  apply BitVec.eq_of_toNat_eq
  rw [BitVec.toNat_ushiftRight, BitVec.toNat_allOnes, Nat.shiftRight_eq_div_pow]
  obtain ⟨v, rfl⟩ : ∃ v, w = v + 1 := ⟨w - 1, by omega⟩
  unfold maxW
  have h1 := Nat.two_pow_pos v
  have e : (2 : Int) ^ (v + 1 - 1) - 1 = ((2 ^ v - 1 : Nat) : Int) := by
    rw [Nat.cast_sub (by omega)]; push_cast; rfl
  rw [e, BitVec.ofInt_natCast, BitVec.toNat_ofNat, Nat.pow_succ, Nat.pow_one,
    Nat.mod_eq_of_lt (by omega)]
  omega

theorem toInt_satS (hw : 0 < w) {m : Nat} (hm : m ≤ w - 1) (x : Int) :
    (BitVec.ofInt w (min (2 ^ m - 1) (max (-2 ^ m) x))).toInt = min (2 ^ m - 1) (max (-2 ^ m) x) := by
  have h1 := pow_le_pow' hm
  have h2 := two_pow_pos' m
  apply toInt_ofIntW hw
  unfold InW; omega

/-- The positive shifts of 5 and more. -/
theorem msa_big (hw : 1 < w) {E : Nat} (hE0 : 0 < E) (hE : E < w) (x : BitVec w) :
    ((BitVec.ofInt w (min (2 ^ (w - 1 - E) - 1) (max (-2 ^ (w - 1 - E)) x.toInt))) <<< E) |||
      ((maskOf ((BitVec.ofInt w (min (2 ^ (w - 1 - E) - 1) (max (-2 ^ (w - 1 - E)) x.toInt))).slt x) : BitVec w) >>> 1)
      = satW w (x.toInt * 2 ^ E) := by
  have hm := two_pow_le hE
  have h1 := two_pow_pos' (w - 1 - E)
  have h2 := two_pow_pos' E
  have hr := toInt_satS (show 0 < w by omega) (show w - 1 - E ≤ w - 1 by omega) x.toInt
  rw [shl_eq, satW_eq, hr]
  have hslt : ∀ y : BitVec w, y.slt x = decide (y.toInt < x.toInt) := fun y => rfl
  rw [hslt, hr]
  generalize (2 : Int) ^ (w - 1 - E) = T at *
  generalize (2 : Int) ^ E = P at *
  by_cases hhi : T - 1 < x.toInt
  · have e1 : min (T - 1) (max (-T) x.toInt) = T - 1 := by omega
    rw [e1, decide_eq_true (by omega)]
    have hmul : (T - 1) * P = T * P - P := by rw [Int.sub_mul]; omega
    have hTP : T * P ≤ x.toInt * P := Int.mul_le_mul_of_nonneg_right (by omega) (by omega)
    have hPT : 1 * P ≤ T * P := Int.mul_le_mul_of_nonneg_right (by omega) (by omega)
    show _ ||| (BitVec.allOnes w >>> 1) = _
    rw [or_max (by omega), max_bits (by omega)]
    · unfold clampTo
      congr 1
      unfold minW maxW
      rw [if_neg (by omega), if_pos (by omega)]
    · rw [BitVec.msb_eq_toInt, toInt_ofIntW (by omega) (by unfold InW; omega)]
      simp; omega
  · by_cases hlo : x.toInt < -T
    · have e1 : min (T - 1) (max (-T) x.toInt) = -T := by omega
      rw [e1, decide_eq_false (by omega)]
      have hTP : x.toInt * P ≤ (-T) * P := Int.mul_le_mul_of_nonneg_right (by omega) (by omega)
      show _ ||| (0#w >>> 1) = _
      rw [Int.neg_mul] at hTP ⊢
      rw [BitVec.zero_ushiftRight, BitVec.or_zero]
      congr 1
      unfold clampTo minW maxW
      have hTP0 := Int.mul_pos h1 h2
      by_cases h3 : x.toInt * P < -2 ^ (w - 1)
      · rw [if_pos h3]; omega
      · rw [if_neg h3, if_neg (by omega)]; omega
    · have e1 : min (T - 1) (max (-T) x.toInt) = x.toInt := by omega
      rw [e1, decide_eq_false (by omega)]
      show _ ||| (0#w >>> 1) = _
      rw [BitVec.zero_ushiftRight, BitVec.or_zero, clamp_id]
      have hTP : x.toInt * P ≤ (T - 1) * P := Int.mul_le_mul_of_nonneg_right (by omega) (by omega)
      have hTP2 : (-T) * P ≤ x.toInt * P := Int.mul_le_mul_of_nonneg_right (by omega) (by omega)
      rw [Int.neg_mul] at hTP2
      rw [Int.sub_mul] at hTP
      unfold InW; omega

theorem sign_bit (hw : 1 < w) (x : BitVec w) : (x >>> (w - 1)).toInt = if x.toInt < 0 then 1 else 0 := by
  have hx := x.isLt
  have hc := BitVec.toInt_eq_toNat_cond x
  have hpn : 2 ^ w = 2 * 2 ^ (w - 1) := by rw [← Nat.pow_succ']; congr 1; omega
  have h1 := Nat.two_pow_pos (w - 1)
  have h2 : 2 ^ 1 ≤ 2 ^ (w - 1) := Nat.pow_le_pow_right (by omega) (by omega)
  have h4 : x.toNat / 2 ^ (w - 1) = if x.toInt < 0 then 1 else 0 := by
    rw [hc]
    rw [hpn] at hx ⊢
    by_cases hs : 2 * x.toNat < 2 * 2 ^ (w - 1)
    · rw [if_pos hs, if_neg (by omega)]
      exact Nat.div_eq_of_lt (by omega)
    · rw [if_neg hs, if_pos (by omega)]
      rw [Nat.div_eq_iff (by omega)]; omega
  rw [BitVec.toInt_eq_toNat_cond, BitVec.toNat_ushiftRight, Nat.shiftRight_eq_div_pow, h4]
  split <;> rw [if_pos (by omega)] <;> rfl

theorem subs_sign (x y : BitVec w) (hy : y.toInt = if x.toInt < 0 then 1 else 0) :
    satW w (x.toInt - y.toInt) =
      BitVec.ofInt w (clampTo (minW w) (maxW w) (x.toInt - if x.toInt < 0 then 1 else 0)) := by
  rw [satW_eq, hy]

theorem mins_toInt (a b : BitVec w) : (if a.slt b then a else b).toInt = min a.toInt b.toInt := by
  simp only [BitVec.slt, decide_eq_true_eq]
  split <;> omega

theorem msa_rdpot (hw : 8 ≤ w) (x : Reg n w) {e : Nat} (he : e < w) (he' : e ≤ 31) (i : Fin n) :
    Fx.rdpot .wrap (x i) e = .ok (Msa.rdpot x e i) := by
  have h1w : 1 < w := by omega
  have hp := pow_le_pow' (show 7 ≤ w - 1 by omega)
  have hsg := sign_bit h1w (x i)
  have hein : (BitVec.ofInt w (e : Int)).toInt = e := toInt_ofIntW (by omega) (by unfold InW; omega)
  have hmin := mins_toInt (x i >>> (w - 1)) (BitVec.ofInt w (e : Int))
  rw [hsg, hein] at hmin
  show _ = Except.ok (if ((e : Int) % w).toNat = 0 then _ else _)
  rw [Int.emod_eq_of_lt (by omega) (by omega), Int.toNat_natCast]
  cases e with
  | zero =>
    rw [if_pos rfl]
    have h0 : min (if (x i).toInt < 0 then (1 : Int) else 0) ((0 : Nat) : Int) = 0 := by split <;> rfl
    rw [h0] at hmin
    show _ = Except.ok (satW w ((x i).toInt - (if (x i >>> (w - 1)).slt (BitVec.ofInt w ((0 : Nat) : Int))
      then x i >>> (w - 1) else BitVec.ofInt w ((0 : Nat) : Int)).toInt))
    rw [hmin, Int.sub_zero, satW_eq, clamp_id (inW_toInt (by omega) _), BitVec.ofInt_toInt]
    apply rdpot_eq h1w (by omega) (by omega)
    have := NearestAway.exact (d := 1) (q := (x i).toInt) (by omega)
    simpa using this
  | succ k =>
    rw [if_neg (by omega)]
    have h0 : min (if (x i).toInt < 0 then (1 : Int) else 0) ((k + 1 : Nat) : Int) =
        if (x i).toInt < 0 then 1 else 0 := by split <;> omega
    rw [h0] at hmin
    exact fix_shift h1w he he' (x i) _ (subs_sign (x i) _ hmin)

theorem msa_srmbp (hw : 8 ≤ w) (x : Reg n w) (e : Int)
    (h1 : -w < e) (h2 : e < w) (h3 : -31 ≤ e) (h4 : e ≤ 30) :
    ∃ r, Msa.srmbp e x = .ok r ∧ ∀ i, Fx.srmbp .wrap e (x i) = .ok (r i) := by
  have h1w : 1 < w := by omega
  unfold Msa.srmbp
  by_cases h0 : e = 0
  · subst h0; exact ⟨x, rfl, fun _ => rfl⟩
  rw [if_neg h0]
  by_cases hp : 0 < e
  · rw [if_pos hp, if_pos h2]
    obtain ⟨E, rfl⟩ : ∃ E : Nat, e = E := ⟨e.toNat, by omega⟩
    by_cases h5 : (E : Int) < 5
    · rw [if_pos h5]
      refine ⟨_, rfl, fun i => ?_⟩
      rw [srmbp_pos_eq h1w (by omega) (by omega) (by omega)]
      congr 1
      apply BitVec.eq_of_toInt_eq
      rw [Int.toNat_natCast, doubleSat_eq (by omega) E x i (x i).toInt
        (clamp_id (inW_toInt (by omega) _)).symm, satW_toInt (by omega)]
    · rw [if_neg h5]
      refine ⟨_, rfl, fun i => ?_⟩
      rw [srmbp_pos_eq h1w (by omega) (by omega) (by omega), Int.toNat_natCast,
        ← msa_big h1w (by omega) (by omega)]
      rfl
  · rw [if_neg hp, if_pos (by omega)]
    obtain ⟨k, hk⟩ : ∃ k : Nat, e = -((k + 1 : Nat) : Int) := ⟨(-e).toNat - 1, by omega⟩
    subst hk
    refine ⟨_, rfl, fun i => ?_⟩
    unfold Fx.srmbp
    rw [if_neg h0, if_neg hp, Int.neg_neg]
    rw [fix_shift h1w (by omega) (by omega) (x i) _ (subs_sign (x i) _ (sign_bit h1w (x i)))]
    rfl

theorem msa_lanes (hw : 8 ≤ w) : Lanes (Msa.ops n w) where
  dup _ _ := rfl
  bitAnd _ _ _ := rfl
  bitOr _ _ _ := rfl
  bitXor _ _ _ := rfl
  bitNot a i := msa_bitNot a i
  add a b i := add_lane _ _
  mul a b i := mul_lane _ _
  sub a b i := sub_lane _ _
  neg a i := by
    rw [neg_lane]
    show _ = Except.ok (0#w - a i)
    rw [BitVec.zero_sub]
  shiftLeft a k i hk hk' h := by rw [shl_lane _ hk' h]; exact congrArg _ (shlMod_lane a k i hk).symm
  shiftRight a k i hk hk' := by rw [shr_lane _ hk']; exact congrArg _ (shrMod_lane a k i hk).symm
  selectUsingMask m a b i _ := by
    rw [← wasm_select, BitVec.or_comm]; rfl
  maskIfEqual a b i := by unfold Fx.maskIfEqual; rw [maskOf_mask (by omega)]; rfl
  maskIfNotEqual a b i := by
    unfold Fx.maskIfNotEqual; rw [maskOf_mask (by omega)]
    show Msa.bitNot (cmpeq a b) i = _
    rw [msa_bitNot]; exact not_maskOf _
  maskIfZero a i := beq_zero_mask (by omega) _
  maskIfNonZero a i := by
    rw [maskNonZero_eq]
    show Msa.bitNot (cmpeq a (splat 0)) i = _
    rw [msa_bitNot]; exact not_maskOf _
  maskIfGreaterThan a b i := by unfold Fx.maskIfGreaterThan; rw [maskOf_mask (by omega)]; rfl
  maskIfGreaterThanOrEqual a b i := by
    unfold Fx.maskIfGreaterThanOrEqual; rw [maskOf_mask (by omega)]; rfl
  maskIfLessThan a b i := by unfold Fx.maskIfLessThan; rw [maskOf_mask (by omega)]; rfl
  maskIfLessThanOrEqual a b i := by
    unfold Fx.maskIfLessThanOrEqual; rw [maskOf_mask (by omega)]; rfl
  roundingHalfSum a b i h := rhadd_lane a b i h
  srdhm a b i _ := qrdmulh_lane (by omega) a b i
  saturatingAdd _ _ _ _ := rfl
  rdpot a e he he' := ⟨_, rfl, fun i => msa_rdpot hw a he he' i⟩
  srmbp := msa_srmbp hw

theorem msa_ops32 : Lanes Msa.ops32 := msa_lanes (by decide)
theorem msa_ops16 : Lanes Msa.ops16 := msa_lanes (by decide)

end Gemmlowp.Simd
