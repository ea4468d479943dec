import Verif.TestRandom
import Verif.PropsKernelSelect
/-!
# C84: the random matrices of the tests
-/
namespace Gemmlowp.TestRandom

theorem offset_lt {cm : Bool} {rows cols r c : Nat} (hr : r < rows) (hc : c < cols) :
    offset cm rows cols r c < rows * cols := by
  unfold offset
  split
  · have := Nat.mul_le_mul_right rows (show c + 1 ≤ cols from hc)
    rw [Nat.add_mul, Nat.mul_comm cols] at this; omega
  · have := Nat.mul_le_mul_right cols (show r + 1 ≤ rows from hr)
    rw [Nat.add_mul] at this; omega

theorem digits_inj {n a b a' b' : Nat} (h : a < n) (h' : a' < n) (e : a + b * n = a' + b' * n) : a = a' ∧ b = b' := by
  have hn : 0 < n := by omega
  have e1 := congrArg (· % n) e
  have e2 := congrArg (· / n) e
  simp only [Nat.add_mul_mod_self_right, Nat.mod_eq_of_lt h, Nat.mod_eq_of_lt h'] at e1
  simp only [Nat.add_mul_div_right _ _ hn, Nat.div_eq_of_lt h, Nat.div_eq_of_lt h'] at e2
  omega

theorem offset_inj {cm : Bool} {rows cols r c r' c' : Nat} (hr : r < rows) (hc : c < cols) (hr' : r' < rows)
    (hc' : c' < cols) (e : offset cm rows cols r c = offset cm rows cols r' c') : r = r' ∧ c = c' := by
  unfold offset at e
  split at e
  · exact digits_inj hr hr' e
  · have := digits_inj hc hc' (b := r) (b' := r') (by omega)
    exact ⟨this.2, this.1⟩

/-- A fold over a range keeps an invariant. -/
theorem foldlM_range {σ : Type} {g : σ → Nat → M σ} (I : Nat → σ → Prop) (n : Nat)
    (h : ∀ i s, i < n → I i s → ∃ s', g s i = .ok s' ∧ I (i + 1) s') (s : σ) (h0 : I 0 s) :
    ∃ s', (List.range n).foldlM g s = .ok s' ∧ I n s' := by
  induction n with
  | zero => exact ⟨s, rfl, h0⟩
  | succ n ih =>
    obtain ⟨s1, e1, i1⟩ := ih fun i s hi => h i s (by omega)
    obtain ⟨s2, e2, i2⟩ := h n s1 (by omega) i1
    refine ⟨s2, ?_, i2⟩
    rw [List.range_succ, List.foldlM_append, e1]
    simp only [List.foldlM_cons, List.foldlM_nil]
    show (g s1 n >>= pure) = _
    rw [e2]; rfl

/-- The columns before `c`, and of column `c` the rows before `r`, are set. -/
def Inv (f : Nat → Int) (cm : Bool) (rows cols c r : Nat) (s : List Int × Nat) : Prop :=
  s.1.length = rows * cols ∧ s.2 = r + c * rows ∧
    ∀ r' c', r' < rows → c' < cols → c' < c ∨ c' = c ∧ r' < r →
      s.1[offset cm rows cols r' c']? = some (f (r' + c' * rows))

theorem fill_spec (f : Nat → Int) (cm : Bool) (rows cols : Nat) (storage : List Int)
    (h : storage.length = rows * cols) :
    ∃ out, fill f cm rows cols storage = .ok (out, rows * cols) ∧ out.length = rows * cols ∧
      ∀ r c, r < rows → c < cols → out[offset cm rows cols r c]? = some (f (r + c * rows)) := by
  obtain ⟨⟨out, n⟩, e, h1, h2, h3⟩ := foldlM_range
    (g := fun s c => (List.range rows).foldlM (step f cm rows cols c) s)
    (fun c s => Inv f cm rows cols c 0 s) cols (by
      intro c s hc hI
      obtain ⟨s', e, hI'⟩ := foldlM_range (g := step f cm rows cols c) (fun r s => Inv f cm rows cols c r s) rows (by
        intro r s hr ⟨h1, h2, h3⟩
        have hlt : offset cm rows cols r c < s.1.length := by rw [h1]; exact offset_lt hr hc
        refine ⟨(s.1.set (offset cm rows cols r c) (f s.2), s.2 + 1), by unfold step; exact if_pos hlt, ?_, ?_, ?_⟩
        · rw [List.length_set, h1]
        · show s.2 + 1 = _; omega
        · intro r' c' hr' hc' hb
          show (s.1.set _ _)[_]? = _
          by_cases he : r = r' ∧ c = c'
          · obtain ⟨rfl, rfl⟩ := he
            rw [List.getElem?_set_self hlt, h2]
          · rw [List.getElem?_set_ne fun e => he (offset_inj hr hc hr' hc' e)]
            exact h3 r' c' hr' hc' (by omega)) s hI
      refine ⟨s', e, hI'.1, ?_, ?_⟩
      · rw [hI'.2.1, Nat.add_mul]; omega
      · intro r' c' hr' hc' hb
        exact hI'.2.2 r' c' hr' hc' (by omega)) (storage, 0) ⟨h, by simp, by intro _ _ _ _ hb; omega⟩
  refine ⟨out, ?_, h1, fun r c hr hc => h3 r c hr hc (.inl hc)⟩
  unfold fill
  rw [e]
  have : n = rows * cols := by rw [Nat.mul_comm]; simpa using h2
  rw [this]

/-- C84: with other compilers than MSVC, `MakeRandom` stays in the storage and draws once for each element: element
(r, c) is draw r + c * rows in either order of the storage, so the matrix does not depend on the order or on what was
in it.  If the distribution keeps its range, all elements are in the range. -/
theorem C84_other_partial (dist : Nat → Int) (range : OperandRange) (hd : ∀ k, range.lo ≤ dist k ∧ dist k ≤ range.hi)
    (cm : Bool) (rows cols : Nat) (storage : List Int) (h : storage.length = rows * cols) :
    ∃ out, makeRandom dist cm rows cols storage = .ok (out, rows * cols) ∧ out.length = rows * cols ∧
      ∀ r c, r < rows → c < cols →
        ∃ v, out[if cm then r + c * rows else r * cols + c]? = some v ∧ v = dist (r + c * rows) ∧
          range.lo ≤ v ∧ v ≤ range.hi := by
  obtain ⟨out, e, hl, hv⟩ := fill_spec dist cm rows cols storage h
  exact ⟨out, e, hl, fun r c hr hc => ⟨_, hv r c hr hc, rfl, hd _⟩⟩

/-- A range whose values the scalars have. -/
def Fits (range : OperandRange) (signed : Bool) : Prop :=
  0 < range.hi ∧ range.hi ≤ if signed then 127 else 255

example : Fits uint8Range false ∧ Fits uint8RangeExcludingZero false ∧ Fits int8Range true ∧
    Fits int8RangeExcludingLow true := by unfold Fits; decide

theorem toScalar_tmod {range : OperandRange} {signed : Bool} (hf : Fits range signed) {x : Int} (hx : 0 ≤ x) :
    toScalar signed (x.tmod range.hi) = x % range.hi ∧ 0 ≤ x % range.hi ∧ x % range.hi < range.hi := by
  obtain ⟨h0, h1⟩ := hf
  have a := Int.emod_nonneg x (b := range.hi) (by omega)
  have b := Int.emod_lt_of_pos x h0
  rw [Int.tmod_eq_emod_of_nonneg hx]
  refine ⟨?_, a, b⟩
  unfold toScalar
  cases signed
  · simp only [Bool.false_eq_true, if_false] at h1 ⊢
    omega
  · simp only [if_true] at h1 ⊢
    rw [Int.bmod_def]
    split <;> omega

/-- C84 with MSVC: the same, but the elements are the remainders by the greatest value of the range, from 0 on.  Hence
they are in the range if 0 is. -/
theorem C84_msvc_partial (range : OperandRange) (signed : Bool) (hf : Fits range signed) (random : Nat → Int)
    (hr : ∀ k, 0 ≤ random k) (cm : Bool) (rows cols : Nat) (storage : List Int)
    (h : storage.length = rows * cols) :
    ∃ out, makeRandomMsvc range signed random cm rows cols storage = .ok (out, rows * cols) ∧
      out.length = rows * cols ∧
      ∀ r c, r < rows → c < cols →
        ∃ v, out[if cm then r + c * rows else r * cols + c]? = some v ∧ v = random (r + c * rows) % range.hi ∧
          (range.lo ≤ 0 → range.lo ≤ v) ∧ v < range.hi := by
  obtain ⟨out, e, hl, hv⟩ := fill_spec (fun k => toScalar signed ((random k).tmod range.hi)) cm rows cols storage h
  refine ⟨out, e, hl, fun r c hr' hc => ?_⟩
  obtain ⟨a, b, d⟩ := toScalar_tmod hf (hr (r + c * rows))
  exact ⟨_, hv r c hr' hc, a, by rw [a]; omega, by rw [a]; exact d⟩

/-- C84 fails with MSVC (F56): for every matrix that is not empty there are results of `Random` with which an element of
the range without zero is zero, which the kernels for that range do not allow. -/
theorem C84_refuted_range (cm : Bool) (rows cols : Nat) (storage : List Int) (h : storage.length = rows * cols)
    {r c : Nat} (hr : r < rows) (hc : c < cols) :
    ∃ random : Nat → Int, (∀ k, 0 ≤ random k ∧ random k ≤ 2 ^ 31 - 1) ∧
      ∃ out n v, makeRandomMsvc uint8RangeExcludingZero false random cm rows cols storage = .ok (out, n) ∧
        out[if cm then r + c * rows else r * cols + c]? = some v ∧ ¬ uint8RangeExcludingZero.Has v := by
  obtain ⟨out, e, -, hv⟩ := C84_msvc_partial uint8RangeExcludingZero false (by unfold Fits; decide) (fun _ => 255)
    (fun _ => by decide) cm rows cols storage h
  obtain ⟨v, hv, rfl, -⟩ := hv r c hr hc
  exact ⟨fun _ => 255, fun _ => by norm_num, out, _, _, e, hv, by unfold OperandRange.Has; decide⟩

/-- C84 fails with MSVC (F56): no results of `Random` give the greatest value of a range, and none a negative one. -/
theorem C84_refuted_reach (range : OperandRange) (signed : Bool) (hf : Fits range signed) (random : Nat → Int)
    (hr : ∀ k, 0 ≤ random k) (cm : Bool) (rows cols : Nat) (storage : List Int)
    (h : storage.length = rows * cols) {out : List Int} {n : Nat}
    (he : makeRandomMsvc range signed random cm rows cols storage = .ok (out, n)) {r c : Nat} (hr' : r < rows)
    (hc : c < cols) : ∃ v, out[if cm then r + c * rows else r * cols + c]? = some v ∧ 0 ≤ v ∧ v ≠ range.hi := by
  obtain ⟨out', e, -, hv⟩ := C84_msvc_partial range signed hf random hr cm rows cols storage h
  rw [e] at he
  cases he
  obtain ⟨v, hv, rfl, -⟩ := hv r c hr' hc
  obtain ⟨-, b, d⟩ := toScalar_tmod hf (hr (r + c * rows))
  exact ⟨_, hv, b, by omega⟩

/-- A matrix of two rows and three columns in each order of the storage. -/
example : makeRandomMsvc int8Range true (fun k => 100 * k) true 2 3 [9, 9, 9, 9, 9, 9] =
    .ok ([0, 100, 73, 46, 19, 119], 6) := by decide +kernel
example : makeRandom (fun k => 1 + k) false 2 3 [9, 9, 9, 9, 9, 9] = .ok ([1, 3, 5, 2, 4, 6], 6) := by decide +kernel

end Gemmlowp.TestRandom
