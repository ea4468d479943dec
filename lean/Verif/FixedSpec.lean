/-!
# What the fixed-point primitives are meant to compute

Plain integers only; nothing here refers to the model.
-/
namespace Gemmlowp.Spec

/-- `q` is the integer nearest to `x / d`; of two equally near ones, the one further from zero. -/
def NearestAway (x d q : Int) : Prop :=
  if 0 ≤ x then 2 * x - d < 2 * (q * d) ∧ 2 * (q * d) ≤ 2 * x + d
  else 2 * x - d ≤ 2 * (q * d) ∧ 2 * (q * d) < 2 * x + d

/-- `q` is the integer nearest to `x / d`; of two equally near ones, the greater. -/
def NearestUp (x d q : Int) : Prop := 2 * x - d < 2 * (q * d) ∧ 2 * (q * d) ≤ 2 * x + d

/-- The member of `[lo, hi]` nearest to `x`. -/
def clampTo (lo hi x : Int) : Int := if x < lo then lo else if hi < x then hi else x

theorem nearest_unique {x d q q' : Int} (h1 : 2 * x - d < 2 * (q * d)) (h2 : 2 * (q * d) ≤ 2 * x + d)
    (h1' : 2 * x - d < 2 * (q' * d)) (h2' : 2 * (q' * d) ≤ 2 * x + d) : q = q' := by
  have hd : 0 < d := by omega
  have key : ∀ a b : Int, 2 * x - d < 2 * (a * d) → 2 * (b * d) ≤ 2 * x + d → b ≤ a := by
    intro a b ha hb
    by_cases hab : b ≤ a
    · exact hab
    · have : (a + 1) * d ≤ b * d := Int.mul_le_mul_of_nonneg_right (by omega) (by omega)
      rw [Int.add_mul] at this
      omega
  have := key q q' h1 h2'
  have := key q' q h1' h2
  omega

/-- The specification determines the result. -/
theorem NearestUp.unique {x d q q' : Int} (h : NearestUp x d q) (h' : NearestUp x d q') : q = q' :=
  nearest_unique h.1 h.2 h'.1 h'.2

theorem NearestAway.neg {x d q : Int} (hx : x ≠ 0) (h : NearestAway x d q) : NearestAway (-x) d (-q) := by
  unfold NearestAway at h ⊢
  rw [Int.neg_mul]
  split at h <;> rename_i hs
  · rw [if_neg (by omega)]; omega
  · rw [if_pos (by omega)]; omega

/-- The specification determines the result. -/
theorem NearestAway.unique {x d q q' : Int} (h : NearestAway x d q) (h' : NearestAway x d q') :
    q = q' := by
  by_cases hx : 0 ≤ x
  · unfold NearestAway at h h'
    rw [if_pos hx] at h h'
    exact nearest_unique h.1 h.2 h'.1 h'.2
  · have h2 := h.neg (by omega)
    have h2' := h'.neg (by omega)
    unfold NearestAway at h2 h2'
    rw [if_pos (by omega)] at h2 h2'
    have := nearest_unique h2.1 h2.2 h2'.1 h2'.2
    omega

/-- Rounding to nearest is the identity on multiples. -/
theorem NearestAway.exact {d q : Int} (hd : 0 < d) : NearestAway (q * d) d q := by
  unfold NearestAway; split <;> omega

/-- Closed form. -/
theorem nearestUp_iff {x d q : Int} (hd : 0 < d) : NearestUp x d q ↔ q = (2 * x + d) / (2 * d) := by
  have h1 : NearestUp x d ((2 * x + d) / (2 * d)) := by
    unfold NearestUp
    have h2 := Int.emod_add_mul_ediv (2 * x + d) (2 * d)
    have h3 := Int.emod_nonneg (2 * x + d) (show 2 * d ≠ 0 by omega)
    have h4 := Int.emod_lt_of_pos (2 * x + d) (show 0 < 2 * d by omega)
    have h5 : 2 * d * ((2 * x + d) / (2 * d)) = 2 * ((2 * x + d) / (2 * d) * d) := by ac_rfl
    omega
  exact ⟨fun h => h.unique h1, fun h => h ▸ h1⟩

end Gemmlowp.Spec
