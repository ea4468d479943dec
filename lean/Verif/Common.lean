import Verif.Base
/-!
# internal/common.h: integer helpers
-/
namespace Gemmlowp

/-- internal/common.h:136-139 `RoundDown<Modulus>(i)`.  Modelled on non-negative arguments. -/
def roundDown (modulus i : Nat) : Nat := i - i % modulus

/-- internal/common.h:143-146 `RoundUp<Modulus>(i)`.  Modelled on non-negative arguments whose
rounded value does not overflow. -/
def roundUp (modulus i : Nat) : Nat := roundDown modulus (i + modulus - 1)

/-- internal/common.h:149-152 `CeilQuotient(a, b)` on non-negative arguments, `b > 0`. -/
def ceilQuotient (a b : Nat) : Nat := (a + b - 1) / b

theorem roundDown_le (m i : Nat) : roundDown m i ≤ i := by unfold roundDown; omega

theorem roundDown_dvd (m i : Nat) : m ∣ roundDown m i := by
  unfold roundDown
  have := Nat.div_add_mod i m
  exact ⟨i / m, by omega⟩

theorem lt_roundDown_add {m i : Nat} (hm : 0 < m) : i < roundDown m i + m := by
  unfold roundDown
  have := Nat.mod_lt i hm
  have := Nat.mod_le i m
  omega

theorem roundUp_dvd (m i : Nat) : m ∣ roundUp m i := roundDown_dvd _ _

theorem le_roundUp {m : Nat} (hm : 0 < m) (i : Nat) : i ≤ roundUp m i := by
  unfold roundUp
  have := lt_roundDown_add (i := i + m - 1) hm
  omega

theorem roundUp_lt {m : Nat} (hm : 0 < m) (i : Nat) : roundUp m i < i + m := by
  unfold roundUp
  have := roundDown_le m (i + m - 1)
  omega

/-- `roundUp` is the least multiple of `m` that is at least `i`. -/
theorem roundUp_le_of_dvd {m i j : Nat} (hm : 0 < m) (hd : m ∣ j) (hj : i ≤ j) :
    roundUp m i ≤ j := by
  have h1 := roundUp_lt hm i
  obtain ⟨a, ha⟩ := roundUp_dvd m i
  obtain ⟨b, hb⟩ := hd
  subst hb
  rw [ha] at h1 ⊢
  by_cases hab : a ≤ b
  · exact Nat.mul_le_mul_left m hab
  · have : m * (b + 1) ≤ m * a := Nat.mul_le_mul_left m (by omega)
    rw [Nat.mul_add] at this
    omega

theorem roundUp_eq_self {m i : Nat} (hm : 0 < m) (hd : m ∣ i) : roundUp m i = i :=
  Nat.le_antisymm (roundUp_le_of_dvd hm hd (Nat.le_refl _)) (le_roundUp hm i)

theorem roundUp_pos {m i : Nat} (hm : 0 < m) (hi : 0 < i) : 0 < roundUp m i :=
  Nat.lt_of_lt_of_le hi (le_roundUp hm i)

theorem roundUp_mono {m i j : Nat} (hm : 0 < m) (h : i ≤ j) : roundUp m i ≤ roundUp m j :=
  roundUp_le_of_dvd hm (roundUp_dvd m j) (Nat.le_trans h (le_roundUp hm j))

theorem ceilQuotient_pos {a b : Nat} (ha : 0 < a) (hb : 0 < b) : 0 < ceilQuotient a b := by
  unfold ceilQuotient
  exact Nat.div_pos (by omega) hb

theorem ceilQuotient_mul_ge {a b : Nat} (hb : 0 < b) : a ≤ b * ceilQuotient a b := by
  unfold ceilQuotient
  have h1 := Nat.div_add_mod (a + b - 1) b
  have h2 := Nat.mod_lt (a + b - 1) hb
  omega

end Gemmlowp
