import Verif.Simd
/-!
# What it means that the vector primitives agree with the scalar ones

`O` are the operations on a register of `n` lanes of `w` bits.  Every clause speaks of one lane `i`
and says that the vector operation puts there what the scalar operation of fixedpoint/fixedpoint.h
(`Gemmlowp.Fx`) returns on that lane of the operands, scalar signed overflow being taken modulo
`2^w`.  The conditions in some clauses are the exact places where the versions differ.
-/
namespace Gemmlowp.Spec

/-- A value that the `MaskIf…` functions return. -/
def IsMask {w : Nat} (m : BitVec w) : Prop := m = 0 ∨ m = BitVec.allOnes w

/-- Lane by lane agreement of the operations that are specialised for each vector type. -/
structure LanesSimple {n w : Nat} (O : RawOps w (Reg n w)) : Prop where
  dup : ∀ x i, O.dup x i = x
  bitAnd : ∀ a b i, O.bitAnd a b i = Fx.bitAnd (a i) (b i)
  bitOr : ∀ a b i, O.bitOr a b i = Fx.bitOr (a i) (b i)
  bitXor : ∀ a b i, O.bitXor a b i = Fx.bitXor (a i) (b i)
  bitNot : ∀ a i, O.bitNot a i = Fx.bitNot (a i)
  add : ∀ a b i, Fx.add .wrap (a i) (b i) = .ok (O.add a b i)
  mul : ∀ a b i, Fx.mul .wrap (a i) (b i) = .ok (O.mul a b i)
  sub : ∀ a b i, Fx.sub .wrap (a i) (b i) = .ok (O.sub a b i)
  neg : ∀ a i, Fx.neg .wrap (a i) = .ok (O.neg a i)
  /-- The scalar version saturates, the vector versions do not. -/
  shiftLeft : ∀ a (k : Nat) i, k < w → k ≤ 30 → InW w ((a i).toInt * 2 ^ k) →
    Fx.shiftLeft (a i) k = .ok (O.shiftLeft a k i)
  shiftRight : ∀ a (k : Nat) i, k < w → k ≤ 31 → Fx.shiftRight (a i) k = .ok (O.shiftRight a k i)
  selectUsingMask : ∀ m a b i, IsMask (m i) →
    O.selectUsingMask m a b i = Fx.selectUsingMask (m i) (a i) (b i)
  maskIfEqual : ∀ a b i, O.maskIfEqual a b i = Fx.maskIfEqual (a i) (b i)
  maskIfNotEqual : ∀ a b i, O.maskIfNotEqual a b i = Fx.maskIfNotEqual (a i) (b i)
  maskIfZero : ∀ a i, O.maskIfZero a i = Fx.maskIfZero (a i)
  maskIfNonZero : ∀ a i, O.maskIfNonZero a i = Fx.maskIfNonZero (a i)
  maskIfGreaterThan : ∀ a b i, O.maskIfGreaterThan a b i = Fx.maskIfGreaterThan (a i) (b i)
  maskIfGreaterThanOrEqual : ∀ a b i,
    O.maskIfGreaterThanOrEqual a b i = Fx.maskIfGreaterThanOrEqual (a i) (b i)
  maskIfLessThan : ∀ a b i, O.maskIfLessThan a b i = Fx.maskIfLessThan (a i) (b i)
  maskIfLessThanOrEqual : ∀ a b i,
    O.maskIfLessThanOrEqual a b i = Fx.maskIfLessThanOrEqual (a i) (b i)
  /-- The vector versions round ties up, the scalar version away from zero. -/
  roundingHalfSum : ∀ a b i, 0 ≤ (a i).toInt + (b i).toInt ∨ ((a i).toInt + (b i).toInt) % 2 = 0 →
    O.roundingHalfSum a b i = Fx.roundingHalfSum (a i) (b i)
  /-- Some versions are wrong for the square of the least number. -/
  srdhm : ∀ a b i, ¬ ((a i).toInt = Fx.minW w ∧ (b i).toInt = Fx.minW w) →
    O.srdhm a b i = Fx.srdhm (a i) (b i)
  saturatingAdd : w = 16 → ∀ a b i, O.saturatingAdd a b i = Fx.saturatingAdd (a i) (b i)

/-- Lane by lane agreement of all operations. -/
structure Lanes {n w : Nat} (O : RawOps w (Reg n w)) : Prop extends LanesSimple O where
  rdpot : ∀ a (e : Nat), e < w → e ≤ 31 → ∃ r, O.rdpot a e = .ok r ∧
    ∀ i, Fx.rdpot .wrap (a i) e = .ok (r i)
  srmbp : ∀ a (e : Int), -w < e → e < w → -31 ≤ e → e ≤ 30 → ∃ r, O.srmbp e a = .ok r ∧
    ∀ i, Fx.srmbp .wrap e (a i) = .ok (r i)

/-- `All` on a register of masks reports whether the mask is set in every lane. -/
def AllOk {n w : Nat} (O : RawOps w (Reg n w)) : Prop :=
  ∀ m : Reg n w, (∀ i, IsMask (m i)) → (O.all m = true ↔ ∀ i, m i ≠ 0)

/-- `Any` on a register of masks reports whether the mask is set in some lane. -/
def AnyOk {n w : Nat} (O : RawOps w (Reg n w)) : Prop :=
  ∀ m : Reg n w, (∀ i, IsMask (m i)) → (O.any m = true ↔ ∃ i, m i ≠ 0)

end Gemmlowp.Spec
