import Verif.MetaPackProof
/-!
# What is in one lane of a register

For code that works on the lanes one by one: `lane` computes, from the symbolic contents of a register, what is in
one of its lanes.
-/
namespace Gemmlowp.MetaAsm

open Vec (VReg ofH ofS ofLanes h_ofH s_ofS)

/-- Lanes of 8, 16 and 32 bits. -/
inductive W | b | h | s
  deriving DecidableEq, Repr

/-- The contents of a lane, with zeros up to 32 bits. -/
inductive LE
  | byte (a : XE)
  | word (a : XE)
  | parB (a : XE)
  | parW (a : XE)
  | sat16 (x : LE)
  | satU8 (x : LE)
  | sx (x : LE)
  | umax (x y : LE)
  | umin (x y : LE)
  | f1 (o : Op1) (x : LE)
  | f2 (o : Op2) (x y : LE)
  | byteOf (k : Nat) (x : LE)
  | add (x y : LE)
  | mul (x y : LE)
  | sshl (x y : LE)
  | other (v : VE) (w : W) (i : Nat)
  deriving DecidableEq, Repr

def lane : VE → W → Nat → LE
  | .load w a, .b, i => if i < w then .byte (a.addImm i) else .other (.load w a) .b i
  | .load w a, .s, i => if 4 * i + 4 ≤ w then .word (a.addImm (4 * i : Nat)) else .other (.load w a) .s i
  | .loadLane sz l a v, .b, i =>
    if sz * l ≤ i ∧ i < sz * (l + 1) then .byte (a.addImm (i - sz * l : Nat)) else lane v .b i
  | .loadLane 4 l a v, .s, i => if i = l then .word a else lane v .s i
  | .dupB a, .b, _ => .parB a
  | .dupW a, .s, _ => .parW a
  | .op1 .sqxtun v, .b, i => if i < 8 then .satU8 (lane v .h i) else .other (.op1 .sqxtun v) .b i
  | .op2 .sqxtun2 v w, .b, i => if i < 8 then lane v .b i else .satU8 (lane w .h (i - 8))
  | .op2 .umax v w, .b, i => .umax (lane v .b i) (lane w .b i)
  | .op2 .umin v w, .b, i => .umin (lane v .b i) (lane w .b i)
  | .op2 .fadd v w, .b, i => .byteOf (i % 4) (.f2 .fadd (lane v .s (i / 4)) (lane w .s (i / 4)))
  | .op1 .fcvtzs v, .b, i => .byteOf (i % 4) (.f1 .fcvtzs (lane v .s (i / 4)))
  | .op1 .sqxtn v, .h, i => if i < 4 then .sat16 (lane v .s i) else .other (.op1 .sqxtn v) .h i
  | .op2 .sqxtn2 v w, .h, i => if i < 4 then lane v .h i else .sat16 (lane w .s (i - 4))
  | .op1 .uxtl v, .h, i => lane v .b i
  | .op1 .uxtl2 v, .h, i => lane v .b (8 + i)
  | .op1 .sxtl v, .s, i => .sx (lane v .h i)
  | .op1 .sxtl2 v, .s, i => .sx (lane v .h (4 + i))
  | .op1 .scvtf v, .s, i => .f1 .scvtf (lane v .s i)
  | .op1 .fcvtns v, .s, i => .f1 .fcvtns (lane v .s i)
  | .op1 .fcvtzs v, .s, i => .f1 .fcvtzs (lane v .s i)
  | .op2 .fadd v w, .s, i => .f2 .fadd (lane v .s i) (lane w .s i)
  | .op2 .fsub v w, .s, i => .f2 .fsub (lane v .s i) (lane w .s i)
  | .op2 .fmul v w, .s, i => .f2 .fmul (lane v .s i) (lane w .s i)
  | .op1 .lo v, .b, i => if i < 8 then lane v .b i else .other (.op1 .lo v) .b i
  | .op1 .lo v, .h, i => if i < 4 then lane v .h i else .other (.op1 .lo v) .h i
  | .op1 .lo v, .s, i => if i < 2 then lane v .s i else .other (.op1 .lo v) .s i
  | .op1 .hi v, .b, i => if i < 8 then lane v .b (8 + i) else .other (.op1 .hi v) .b i
  | .op1 .hi v, .h, i => if i < 4 then lane v .h (4 + i) else .other (.op1 .hi v) .h i
  | .op1 .hi v, .s, i => if i < 2 then lane v .s (2 + i) else .other (.op1 .hi v) .s i
  | .op2 .join v w, .b, i =>
    if i < 8 then lane v .b i else if i < 16 then lane w .b (i - 8) else .other (.op2 .join v w) .b i
  | .op2 .join v w, .h, i =>
    if i < 4 then lane v .h i else if i < 8 then lane w .h (i - 4) else .other (.op2 .join v w) .h i
  | .op2 .join v w, .s, i =>
    if i < 2 then lane v .s i else if i < 4 then lane w .s (i - 2) else .other (.op2 .join v w) .s i
  | .op2 .vpadd v w, .s, i =>
    if i = 0 then .add (lane v .s 0) (lane v .s 1)
    else if i = 1 then .add (lane w .s 0) (lane w .s 1) else .other (.op2 .vpadd v w) .s i
  | .op1 .uaddlp v, .s, i => .add (lane v .h (2 * i)) (lane v .h (2 * i + 1))
  | .op2 .add v w, .s, i => .add (lane v .s i) (lane w .s i)
  | .op2 .mul v w, .s, i => .mul (lane v .s i) (lane w .s i)
  | .op2 .sshl v w, .s, i => .sshl (lane v .s i) (lane w .s i)
  | .mulLane l v w, .s, i => .mul (lane v .s i) (lane w .s l)
  | .dupLane l v, .s, _ => lane v .s l
  | .ins a v, .s, i => if i = 0 then .parW a else lane v .s i
  | v, w, i => .other v w i

def FloatOps.un (f : FloatOps) : Op1 → BitVec 32 → BitVec 32
  | .scvtf, x => f.ofInt x
  | .fcvtns, x => f.toNearest x
  | .fcvtzs, x => f.toZero x
  | _, x => x

def FloatOps.bin (f : FloatOps) : Op2 → BitVec 32 → BitVec 32 → BitVec 32
  | .fadd, x, y => f.add x y
  | .fsub, x, y => f.sub x y
  | .fmul, x, y => f.mul x y
  | _, x, _ => x

/-- A lane with zeros up to 32 bits. -/
def W.get : W → VReg → Nat → BitVec 32
  | .b, v, i => (v i).zeroExtend 32
  | .h, v, i => (v.h i).zeroExtend 32
  | .s, v, i => v.s i

def LE.eval (f : FloatOps) (mem : Int → BitVec 8) (s0 : St VReg Int) : LE → BitVec 32
  | .byte a => (mem (a.eval s0.x)).zeroExtend 32
  | .word a => MetaAsm.word mem (a.eval s0.x)
  | .parB a => (BitVec.ofInt 8 (a.eval s0.x)).zeroExtend 32
  | .parW a => BitVec.ofInt 32 (a.eval s0.x)
  | .sat16 x => (MetaAsm.sat16 (x.eval f mem s0)).zeroExtend 32
  | .satU8 x => (MetaAsm.satU8 ((x.eval f mem s0).setWidth 16)).zeroExtend 32
  | .sx x => ((x.eval f mem s0).setWidth 16).signExtend 32
  | .umax x y => if (x.eval f mem s0).toNat ≤ (y.eval f mem s0).toNat then y.eval f mem s0 else x.eval f mem s0
  | .umin x y => if (x.eval f mem s0).toNat ≤ (y.eval f mem s0).toNat then x.eval f mem s0 else y.eval f mem s0
  | .f1 o x => f.un o (x.eval f mem s0)
  | .f2 o x y => f.bin o (x.eval f mem s0) (y.eval f mem s0)
  | .byteOf k x => ((x.eval f mem s0).extractLsb' (8 * k) 8).zeroExtend 32
  | .add x y => x.eval f mem s0 + y.eval f mem s0
  | .mul x y => x.eval f mem s0 * y.eval f mem s0
  | .sshl x y => MetaAsm.sshl (x.eval f mem s0) (y.eval f mem s0)
  | .other v w i => w.get (v.eval f mem s0) i

theorem word_of_bytes {v : VReg} {i : Nat} {mem : Int → BitVec 8} {a : Int}
    (h : ∀ t : Nat, t < 4 → v (4 * i + t) = mem (a + t)) : v.s i = word mem a := by
  unfold VReg.s VReg.h word
  rw [show 2 * (2 * i + 1) + 1 = 4 * i + 3 by omega, show 2 * (2 * i + 1) = 4 * i + 2 by omega,
    show 2 * (2 * i) + 1 = 4 * i + 1 by omega, show 2 * (2 * i) = 4 * i + 0 by omega,
    h 0 (by omega), h 1 (by omega), h 2 (by omega), h 3 (by omega)]
  simp

theorem s_congr {v w : VReg} {i : Nat} (h : ∀ t : Nat, t < 4 → v (4 * i + t) = w (4 * i + t)) : v.s i = w.s i := by
  unfold VReg.s VReg.h
  rw [show 2 * (2 * i + 1) + 1 = 4 * i + 3 by omega, show 2 * (2 * i + 1) = 4 * i + 2 by omega,
    show 2 * (2 * i) + 1 = 4 * i + 1 by omega, show 2 * (2 * i) = 4 * i + 0 by omega,
    h 0 (by omega), h 1 (by omega), h 2 (by omega), h 3 (by omega)]

theorem h_congr2 {v w : VReg} {i j : Nat} (h : ∀ t : Nat, t < 2 → v (2 * i + t) = w (2 * j + t)) : v.h i = w.h j := by
  unfold VReg.h
  rw [show 2 * i = 2 * i + 0 by omega, show 2 * j = 2 * j + 0 by omega, h 0 (by omega), h 1 (by omega)]

theorem s_congr2 {v w : VReg} {i j : Nat} (h : ∀ t : Nat, t < 4 → v (4 * i + t) = w (4 * j + t)) : v.s i = w.s j := by
  unfold VReg.s
  rw [h_congr2 (v := v) (w := w) (i := 2 * i) (j := 2 * j), h_congr2 (v := v) (w := w) (i := 2 * i + 1) (j := 2 * j + 1)]
  · intro t ht
    have := h (t + 2) (by omega)
    rw [show 2 * (2 * i + 1) + t = 4 * i + (t + 2) by omega, show 2 * (2 * j + 1) + t = 4 * j + (t + 2) by omega]
    exact this
  · intro t ht
    have := h t (by omega)
    rw [show 2 * (2 * i) + t = 4 * i + t by omega, show 2 * (2 * j) + t = 4 * j + t by omega]
    exact this

theorem lo_h (f : FloatOps) (v : VReg) {i : Nat} (h : i < 4) : VReg.h (op1V f .lo v) i = v.h i := by
  apply h_congr2
  intro t ht
  simp only [op1V]
  rw [if_pos (by omega)]

theorem hi_h (f : FloatOps) (v : VReg) {i : Nat} (h : i < 4) : VReg.h (op1V f .hi v) i = v.h (4 + i) := by
  apply h_congr2
  intro t ht
  simp only [op1V]
  rw [if_pos (by omega)]
  congr 1; omega

theorem join_h (f : FloatOps) (v w : VReg) {i : Nat} (h : i < 4) : VReg.h (op2V f .join v w) i = v.h i := by
  apply h_congr2
  intro t ht
  simp only [op2V]
  rw [if_pos (by omega)]

theorem join_h2 (f : FloatOps) (v w : VReg) {i : Nat} (h0 : ¬i < 4) (h : i < 8) : VReg.h (op2V f .join v w) i = w.h (i - 4) := by
  apply h_congr2
  intro t ht
  simp only [op2V]
  rw [if_neg (by omega), if_pos (by omega)]
  congr 1; omega

theorem lo_s (f : FloatOps) (v : VReg) {i : Nat} (h : i < 2) : VReg.s (op1V f .lo v) i = v.s i := by
  apply s_congr2
  intro t ht
  simp only [op1V]
  rw [if_pos (by omega)]

theorem hi_s (f : FloatOps) (v : VReg) {i : Nat} (h : i < 2) : VReg.s (op1V f .hi v) i = v.s (2 + i) := by
  apply s_congr2
  intro t ht
  simp only [op1V]
  rw [if_pos (by omega)]
  congr 1; omega

theorem join_s (f : FloatOps) (v w : VReg) {i : Nat} (h : i < 2) : VReg.s (op2V f .join v w) i = v.s i := by
  apply s_congr2
  intro t ht
  simp only [op2V]
  rw [if_pos (by omega)]

theorem join_s2 (f : FloatOps) (v w : VReg) {i : Nat} (h0 : ¬i < 2) (h : i < 4) : VReg.s (op2V f .join v w) i = w.s (i - 2) := by
  apply s_congr2
  intro t ht
  simp only [op2V]
  rw [if_neg (by omega), if_pos (by omega)]
  congr 1; omega

theorem setWidth_zx16 (x : BitVec 16) : (x.zeroExtend 32).setWidth 16 = x := by
  simp [BitVec.setWidth_setWidth_of_le]

theorem zx_toNat (x : BitVec 8) : (x.zeroExtend 32).toNat = x.toNat := by
  have := x.isLt
  rw [BitVec.toNat_setWidth]; omega

theorem zx_zx (x : BitVec 8) : (x.zeroExtend 16).zeroExtend 32 = x.zeroExtend 32 := by
  apply BitVec.eq_of_toNat_eq
  have := x.isLt
  simp only [BitVec.toNat_setWidth]; omega

/-- `lane` is right. -/
theorem lane_eval (f : FloatOps) (mem : Int → BitVec 8) (s0 : St VReg Int) (v : VE) (w : W) (i : Nat) :
    (lane v w i).eval f mem s0 = w.get (v.eval f mem s0) i := by
  fun_induction lane v w i with
  | case1 w a i h =>
    simp only [LE.eval, W.get, VE.eval, machine, XE.eval_addImm, if_pos h]
  | case3 w a i h =>
    simp only [LE.eval, W.get, VE.eval, XE.eval_addImm]
    symm
    apply word_of_bytes
    intro t ht
    show (if 4 * i + t < w then _ else _) = _
    rw [if_pos (by omega)]
    congr 1; omega
  | case5 sz l a v i h =>
    simp only [LE.eval, W.get, VE.eval, machine, XE.eval_addImm, if_pos h]
  | case6 sz l a v i h ih =>
    rw [ih]
    simp only [W.get, VE.eval, machine, if_neg h]
  | case7 a v i =>
    simp only [LE.eval, W.get, VE.eval]
    symm
    apply word_of_bytes
    intro t ht
    show (if 4 * i ≤ 4 * i + t ∧ 4 * i + t < 4 * (i + 1) then _ else _) = _
    rw [if_pos (by omega)]
    congr 1; omega
  | case8 l a v i h ih =>
    rw [ih]
    simp only [W.get, VE.eval]
    symm
    apply s_congr
    intro t ht
    show (if 4 * l ≤ 4 * i + t ∧ 4 * i + t < 4 * (l + 1) then _ else _) = _
    rw [if_neg (by omega)]
  | case15 v w i ih2 ih1 =>
    simp only [LE.eval, ih1, ih2, W.get, VE.eval, machine, op2V, zx_toNat]
    split <;> rfl
  | case16 v w i ih2 ih1 =>
    simp only [LE.eval, ih1, ih2, W.get, VE.eval, machine, op2V, zx_toNat]
    split <;> rfl
  | case17 v w i ih2 ih1 => simp only [LE.eval, ih1, ih2]; rfl
  | case18 v i ih1 => simp only [LE.eval, ih1]; rfl
  | case23 v i ih1 =>
    rw [ih1]
    simp only [W.get, VE.eval, machine, op1V, h_ofH, zx_zx]
  | case24 v i ih1 =>
    rw [ih1]
    simp only [W.get, VE.eval, machine, op1V, h_ofH, zx_zx]
  | case35 v i h ih => exact ih.trans (congrArg (BitVec.zeroExtend 32) (lo_h f _ h).symm)
  | case37 v i h ih => exact ih.trans ((lo_s f _ h).symm)
  | case41 v i h ih => exact ih.trans (congrArg (BitVec.zeroExtend 32) (hi_h f _ h).symm)
  | case43 v i h ih => exact ih.trans ((hi_s f _ h).symm)
  | case48 v w i h ih => exact ih.trans (congrArg (BitVec.zeroExtend 32) (join_h f _ _ h).symm)
  | case49 v w i h0 h ih => exact ih.trans (congrArg (BitVec.zeroExtend 32) (join_h2 f _ _ h0 h).symm)
  | case51 v w i h ih => exact ih.trans ((join_s f _ _ h).symm)
  | case52 v w i h0 h ih => exact ih.trans ((join_s2 f _ _ h0 h).symm)
  | _ =>
    first
    | rfl
    | (simp_all only [LE.eval, W.get, VE.eval, machine, op1V, op2V, s_ofS, h_ofH, setWidth_zx16, FloatOps.un,
        FloatOps.bin, if_true, if_false])

end Gemmlowp.MetaAsm
