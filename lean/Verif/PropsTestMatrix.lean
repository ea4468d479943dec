import Verif.TestMatrix
/-!
# C82: comparison and copy of the matrices of the tests
-/
namespace Gemmlowp.TestMatrix

/-- A matrix as the constructors and `Resize` make it, of scalars of `w` bytes. -/
def Matrix.Ok (w : Nat) (m : Matrix) : Prop := m.storage.length = m.rows * m.cols ∧ ∀ x ∈ m.storage, x < 256 ^ w

theorem toBytes_length (w x : Nat) : (toBytes w x).length = w := by simp [toBytes]

theorem flat_length (w : Nat) (l : List Nat) : (l.flatMap (toBytes w)).length = l.length * w := by
  induction l with
  | nil => simp
  | cons x l ih => rw [List.flatMap_cons, List.length_append, ih, toBytes_length, List.length_cons, Nat.add_mul]; omega

/-- A scalar is its bytes. -/
theorem value_toBytes (w : Nat) : ∀ x, x < 256 ^ w → ((List.range w).map fun i => x / 256 ^ i % 256 * 256 ^ i).sum = x := by
  induction w with
  | zero => intro x h; simp at h; simp [h]
  | succ w ih =>
    intro x h
    rw [List.range_succ, List.map_append, List.sum_append]
    have hx : ∀ i < w, x % 256 ^ w / 256 ^ i % 256 = x / 256 ^ i % 256 := by
      intro i hi
      rw [show 256 ^ w = 256 ^ i * 256 ^ (w - i) by rw [← Nat.pow_add]; congr 1; omega,
        Nat.mod_mul_right_div_self, Nat.mod_mod_of_dvd]
      exact ⟨256 ^ (w - i - 1), by rw [← Nat.pow_succ']; congr 1; omega⟩
    have e : ((List.range w).map fun i => x / 256 ^ i % 256 * 256 ^ i) =
        (List.range w).map fun i => x % 256 ^ w / 256 ^ i % 256 * 256 ^ i :=
      List.map_congr_left fun i hi => by rw [hx i (List.mem_range.1 hi)]
    rw [e, ih _ (Nat.mod_lt _ (Nat.pow_pos (by omega)))]
    simp only [List.map_cons, List.map_nil, List.sum_cons, List.sum_nil, Nat.add_zero]
    have hlt : x / 256 ^ w < 256 := by
      rw [Nat.div_lt_iff_lt_mul (Nat.pow_pos (by omega)), Nat.mul_comm, ← Nat.pow_succ]
      exact h
    rw [Nat.mod_eq_of_lt hlt, Nat.mul_comm]
    exact Nat.mod_add_div x (256 ^ w)

theorem fromBytes_flat (w : Nat) : ∀ (l : List Nat), (∀ x ∈ l, x < 256 ^ w) → ∀ rest,
    fromBytes w l.length (l.flatMap (toBytes w) ++ rest) = l := by
  intro l
  induction l with
  | nil => intro _ _; rfl
  | cons x l ih =>
    intro h rest
    rw [List.length_cons, fromBytes, List.flatMap_cons, List.append_assoc]
    congr 1
    · have e : ((List.range w).map fun i => (toBytes w x ++ (l.flatMap (toBytes w) ++ rest)).getD i 0 * 256 ^ i) =
          (List.range w).map fun i => x / 256 ^ i % 256 * 256 ^ i := by
        apply List.map_congr_left
        intro i hi
        have hi := List.mem_range.1 hi
        congr 1
        rw [List.getD_eq_getElem?_getD, List.getElem?_append_left (by rw [toBytes_length]; exact hi)]
        simp [toBytes, hi]
      rw [e]
      exact value_toBytes w x (h x (by simp))
    · rw [List.drop_append_of_le_length (by rw [toBytes_length]; omega),
        List.drop_of_length_le (by rw [toBytes_length]; omega), List.nil_append]
      exact ih (fun y hy => h y (by simp [hy])) rest

/-- **C82** (part): a copy is the original, for scalars of every size and whatever was there before. -/
theorem C82_assign_partial {w : Nat} (m : Matrix) {other : Matrix} (h : other.Ok w) : assign w m other = .ok other := by
  obtain ⟨h1, h2⟩ := h
  have hl : (resize m other.rows other.cols).storage.length = other.storage.length := by
    rw [h1]
    simp only [resize, List.length_append, List.length_take, List.length_replicate]
    omega
  have hs : (resize m other.rows other.cols).size = other.storage.length := h1.symm
  unfold assign
  dsimp only
  rw [hs, if_pos (by unfold Matrix.bytes; rw [flat_length, flat_length, hl]; omega)]
  rw [List.take_of_length_le (by unfold Matrix.bytes; rw [flat_length]; omega), hl]
  unfold Matrix.bytes
  rw [fromBytes_flat w _ h2]
  rfl

/-- **C82** (part): for scalars of one byte, `operator==` tells whether two matrices are the same. -/
theorem C82_equal_partial {a b : Matrix} (ha : a.Ok 1) (hb : b.Ok 1) : equal 1 a b = .ok (decide (a = b)) := by
  have hf : ∀ l : List Nat, (∀ x ∈ l, x < 256 ^ 1) → l.flatMap (toBytes 1) = l := by
    intro l
    induction l with
    | nil => intro _; rfl
    | cons x l ih =>
      intro h
      have hx := h x (by simp)
      rw [List.flatMap_cons, ih fun y hy => h y (by simp [hy])]
      simp [toBytes, List.range_succ]
      omega
  unfold equal memcmpEq Matrix.bytes Matrix.size
  rw [hf _ ha.2, hf _ hb.2]
  split
  · rename_i hd
    rw [if_pos ⟨by rw [ha.1]; omega, by rw [hb.1, hd.1, hd.2]; omega⟩,
      List.take_of_length_le (by rw [ha.1]; omega), List.take_of_length_le (by rw [hb.1, hd.1, hd.2]; omega)]
    congr 1
    obtain ⟨r, c, s⟩ := a
    obtain ⟨r', c', s'⟩ := b
    obtain ⟨rfl, rfl⟩ := hd
    by_cases hs : s = s' <;> simp [hs]
  · rename_i hd
    congr 1
    symm
    rw [decide_eq_false_iff_not]
    rintro rfl
    exact hd ⟨rfl, rfl⟩

/-- Equal matrices always compare equal, for scalars of every size. -/
theorem C82_refl_partial {w : Nat} (hw : 1 ≤ w) {a : Matrix} (ha : a.Ok w) : equal w a a = .ok true := by
  unfold equal memcmpEq Matrix.bytes Matrix.size
  have : a.rows * a.cols ≤ a.rows * a.cols * w := Nat.le_mul_of_pos_right _ hw
  rw [if_pos ⟨rfl, rfl⟩, if_pos (by rw [flat_length, ha.1]; exact ⟨this, this⟩)]
  simp

/-- **C82 is refuted** for all larger scalars: `operator==` compares as many bytes as there are elements, so two matrices
of at least two elements that differ in the last one only compare equal. -/
theorem C82_refuted_equal {w : Nat} (hw : 2 ≤ w) {rows cols : Nat} {l : List Nat} {x y : Nat} (hl : 1 ≤ l.length)
    (hn : l.length + 1 = rows * cols) : equal w ⟨rows, cols, l ++ [x]⟩ ⟨rows, cols, l ++ [y]⟩ = .ok true := by
  have h2 : rows * cols ≤ l.length * w := by
    have := Nat.mul_le_mul_left l.length hw
    omega
  unfold equal memcmpEq Matrix.bytes Matrix.size
  dsimp only
  rw [if_pos ⟨rfl, rfl⟩, List.flatMap_append, List.flatMap_append, if_pos (by
    rw [List.length_append, List.length_append, flat_length]; omega),
    List.take_append_of_le_length (by rw [flat_length]; exact h2),
    List.take_append_of_le_length (by rw [flat_length]; exact h2)]
  simp

/-- For `int32_t`: 1x2 matrices that hold 5, 6 and 5, 7 compare equal. -/
theorem C82_refuted_int32 : equal 4 ⟨1, 2, [5, 6]⟩ ⟨1, 2, [5, 7]⟩ = .ok true ∧ (⟨1, 2, [5, 6]⟩ : Matrix).Ok 4 ∧
    (⟨1, 2, [5, 7]⟩ : Matrix).Ok 4 :=
  ⟨C82_refuted_equal (l := [5]) (by decide) (by decide) (by decide), by unfold Matrix.Ok; decide, by unfold Matrix.Ok; decide⟩

/-- The hypotheses of the other theorems can be met. -/
example : (⟨2, 2, [1, 255, 3, 0]⟩ : Matrix).Ok 1 := by unfold Matrix.Ok; decide

end Gemmlowp.TestMatrix
