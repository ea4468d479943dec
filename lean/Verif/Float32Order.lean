import Verif.Float32Ops
/-!
# binary32 arithmetic: order
-/
namespace Gemmlowp.F32

/-- The place of an operand among all of them, infinities included. -/
def key (b : BitVec 32) : Int := if neg b then -(mag b : Int) else mag b

/-- At most, as `<=` of the language: false for NaN, and the two zeros are equal. -/
def Le (a b : BitVec 32) : Prop := isNaN a = false ∧ isNaN b = false ∧ key a ≤ key b

theorem key_pack (s : Bool) {m : Nat} (h : m < 2147483648) : key (pack s m) = if s then -(m : Int) else m := by
  unfold key; rw [neg_pack s h, mag_pack s h]

theorem isNaN_pack (s : Bool) {m : Nat} (h : m ≤ infBits) : isNaN (pack s m) = false := by
  unfold isNaN
  rw [mag_pack s (by unfold infBits at h; omega), decide_eq_false_iff_not]
  omega

/-- `Le` of numbers is the order of the numbers. -/
theorem val_le {a b : BitVec 32} (ha : isFin a = true) (hb : isFin b = true) (h : key a ≤ key b) : val a ≤ val b := by
  unfold isFin at ha hb
  rw [decide_eq_true_eq] at ha hb
  have pa := magVal_nonneg (mag a)
  have pb := magVal_nonneg (mag b)
  unfold key at h
  unfold val
  cases hna : neg a <;> cases hnb : neg b <;> rw [hna, hnb] at h <;>
    simp only [if_true, if_false, Bool.false_eq_true] at h ⊢
  · exact magVal_mono (by omega) hb
  · have e1 : mag a = 0 := by omega
    have e2 : mag b = 0 := by omega
    rw [e1, e2, magVal_zero, neg_zero]
  · linarith
  · have := magVal_mono (show mag b ≤ mag a by omega) ha
    linarith

theorem key_lt_of_val_lt {a b : BitVec 32} (ha : isFin a = true) (hb : isFin b = true) (h : val a < val b) :
    key a < key b := by
  by_contra hc
  have := val_le hb ha (by omega)
  linarith

theorem key_inp (ftz : Bool) (b : BitVec 32) :
    key (inp ftz b) = if ftz = true ∧ -8388608 < key b ∧ key b < 8388608 then 0 else key b := by
  unfold inp
  cases ftz
  · simp
  · simp only [Bool.true_and, decide_eq_true_eq, true_and]
    have hk : (-8388608 < key b ∧ key b < 8388608) ↔ mag b < 8388608 := by
      unfold key; split <;> omega
    by_cases h : mag b < 8388608
    · rw [if_pos h, if_pos (hk.2 h), key_pack _ (by decide)]; simp
    · rw [if_neg h, if_neg (fun h' => h (hk.1 h'))]

theorem inp_mono (ftz : Bool) {a b : BitVec 32} (h : Le a b) : Le (inp ftz a) (inp ftz b) := by
  obtain ⟨h1, h2, h3⟩ := h
  refine ⟨inp_nan ftz h1, inp_nan ftz h2, ?_⟩
  rw [key_inp, key_inp]
  cases ftz
  · simpa using h3
  · simp only [true_and]
    split <;> split <;> omega

/-- The bits of a rounded magnitude. -/
def flushed (ftz : Bool) (q : Rat) : Nat := if ftz = true ∧ q < pow2 (-126) then 0 else magOf q

theorem key_rnd (ftz s : Bool) (q : Rat) : isNaN (rnd ftz s q) = false ∧ key (rnd ftz s q) =
    if s then -(flushed ftz q : Int) else (flushed ftz q : Int) := by
  unfold flushed
  have hm : magOf q ≤ infBits := by
    unfold magOf
    split
    · decide
    · exact min_le_right _ _
  unfold rnd
  split
  · rename_i h
    simp only [Bool.and_eq_true, decide_eq_true_eq] at h
    rw [if_pos h]
    exact ⟨isNaN_pack _ (by decide), key_pack _ (by decide)⟩
  · rename_i h
    simp only [Bool.and_eq_true, decide_eq_true_eq] at h
    rw [if_neg h]
    exact ⟨isNaN_pack _ hm, key_pack _ (by unfold infBits at hm; omega)⟩

theorem flush_mono (ftz : Bool) {p q : Rat} (h : p ≤ q) :
    flushed ftz p ≤ flushed ftz q := by
  unfold flushed
  have := magOf_mono h
  split
  · omega
  · rename_i h1
    rw [if_neg]
    · exact this
    · exact fun h2 => h1 ⟨h2.1, lt_of_le_of_lt h h2.2⟩

theorem flushed_zero (ftz : Bool) : flushed ftz 0 = 0 := by unfold flushed; rw [magOf_zero]; simp

/-- The rounded sum is in the order of the exact sum. -/
theorem rnd_mono (ftz : Bool) {p q : Rat} (h : p ≤ q) :
    key (rnd ftz (decide (p < 0)) |p|) ≤ key (rnd ftz (decide (q < 0)) |q|) := by
  rw [(key_rnd _ _ _).2, (key_rnd _ _ _).2]
  by_cases hp : p < 0
  · rw [if_pos (decide_eq_true hp)]
    by_cases hq : q < 0
    · rw [if_pos (decide_eq_true hq)]
      have := flush_mono ftz (show |q| ≤ |p| by rw [abs_of_neg hp, abs_of_neg hq]; linarith)
      omega
    · rw [if_neg (by simpa using not_lt.1 hq)]
      omega
  · have hq : ¬ q < 0 := fun h' => hp (lt_of_le_of_lt h h')
    rw [if_neg (by simpa using not_lt.1 hp), if_neg (by simpa using not_lt.1 hq)]
    have := flush_mono ftz (show |p| ≤ |q| by rw [abs_of_nonneg (not_lt.1 hp), abs_of_nonneg (not_lt.1 hq)]; exact h)
    omega

theorem key_inf {b : BitVec 32} (h : isInf b = true) : key b = if neg b then -2139095040 else 2139095040 := by
  unfold isInf at h
  rw [decide_eq_true_eq] at h
  unfold key; rw [h]; rfl

theorem key_bounds {b : BitVec 32} (h : isNaN b = false) : -2139095040 ≤ key b ∧ key b ≤ 2139095040 := by
  unfold isNaN infBits at h
  rw [decide_eq_false_iff_not] at h
  unfold key; split <;> omega

theorem kinds {b : BitVec 32} (h : isNaN b = false) : isFin b = true ∨ isInf b = true := by
  unfold isNaN at h
  unfold isFin isInf
  simp only [decide_eq_false_iff_not, decide_eq_true_eq] at *
  omega

theorem neg_of_key {b : BitVec 32} (h : isInf b = true) : neg b = decide (key b < 0) := by
  rw [key_inf h]
  cases neg b <;> simp

/-- The key of a sum with a number. -/
theorem add'_fin (ftz : Bool) {a c : BitVec 32} (ha : isNaN a = false) (hc : isFin c = true) :
    isNaN (add' ftz a c) = false ∧
    (isInf a = true → key (add' ftz a c) = key a) ∧
    (isFin a = true → key (add' ftz a c) = key (rnd ftz (decide (val a + val c < 0)) |val a + val c|)) := by
  have hc' := fin_not hc
  unfold add'
  rw [ha, hc'.1, hc'.2, Bool.false_or, if_neg (by decide)]
  simp only [Bool.false_and, Bool.false_eq_true, if_false]
  rcases kinds ha with hf | hi
  · have ha' := (fin_not hf).2
    rw [ha', if_neg (by decide)]
    refine ⟨?_, fun h => by simp at h, fun _ => ?_⟩
    · split
      · exact isNaN_pack _ (by decide)
      · exact (key_rnd _ _ _).1
    · split
      · rename_i h0
        rw [h0, (key_rnd _ _ _).2, abs_zero, flushed_zero, key_pack _ (by decide)]
        simp
      · rfl
  · rw [hi, if_pos rfl]
    refine ⟨ha, fun _ => rfl, fun hf => ?_⟩
    have := (fin_not hf).2
    rw [hi] at this
    cases this

theorem add_mono (ftz : Bool) {a b c : BitVec 32} (h : Le a b) (hc : isFin c = true) :
    Le (add ftz a c) (add ftz b c) := by
  have h' := inp_mono ftz h
  have hc' := inp_fin ftz hc
  unfold add
  generalize inp ftz a = a at *
  generalize inp ftz b = b at *
  generalize inp ftz c = c at *
  obtain ⟨h1, h2, h3⟩ := h'
  obtain ⟨a1, a2, a3⟩ := add'_fin ftz h1 hc'
  obtain ⟨b1, b2, b3⟩ := add'_fin ftz h2 hc'
  refine ⟨a1, b1, ?_⟩
  have ka := key_bounds a1
  have kb := key_bounds b1
  have ka' := key_bounds h1
  have kb' := key_bounds h2
  rcases kinds h1 with ha | ha
  · rcases kinds h2 with hb | hb
    · rw [a3 ha, b3 hb]
      exact rnd_mono ftz (by have := val_le ha hb h3; linarith)
    · rw [b2 hb]
      have := key_inf hb
      have hfa : -2139095040 < key a := by
        unfold isFin infBits at ha
        rw [decide_eq_true_eq] at ha
        unfold key; split <;> omega
      split at this <;> omega
  · rw [a2 ha]
    have := key_inf ha
    rcases kinds h2 with hb | hb
    · have hfb : key b < 2139095040 := by
        unfold isFin infBits at hb
        rw [decide_eq_true_eq] at hb
        unfold key; split <;> omega
      split at this <;> omega
    · rw [b2 hb]; exact h3

theorem sub_mono (ftz : Bool) {a b c : BitVec 32} (h : Le a b) (hc : isFin c = true) :
    Le (sub ftz a c) (sub ftz b c) := add_mono ftz h (opp_fin hc)

theorem mul'_pos (ftz : Bool) {a s : BitVec 32} (ha : isNaN a = false) (hs : isFin s = true) (h : 0 < val s) :
    isNaN (mul' ftz a s) = false ∧
    (isInf a = true → key (mul' ftz a s) = key a) ∧
    (isFin a = true → key (mul' ftz a s) = key (rnd ftz (decide (val a * val s < 0)) |val a * val s|)) := by
  have hs' := fin_not hs
  have hneg : neg s = false := by
    by_contra hc
    rw [Bool.not_eq_false] at hc
    unfold val at h
    rw [if_pos hc] at h
    linarith [magVal_nonneg (mag s)]
  have hmag : mag s ≠ 0 := by
    intro hc
    unfold val at h
    rw [hc, magVal_zero] at h
    simp at h
  unfold mul'
  rw [ha, hs'.1, hs'.2, Bool.false_or, if_neg (by decide), Bool.or_false, hneg]
  rcases kinds ha with hf | hi
  · rw [(fin_not hf).2, if_neg (by decide)]
    refine ⟨(key_rnd _ _ _).1, fun h => by simp at h, fun _ => ?_⟩
    rw [(key_rnd _ _ _).2, (key_rnd _ _ _).2]
    rcases lt_trichotomy (val a) 0 with hv | hv | hv
    · have : neg a = true := by
        by_contra hc
        rw [Bool.not_eq_true] at hc
        unfold val at hv
        rw [hc, if_neg (by decide)] at hv
        linarith [magVal_nonneg (mag a)]
      rw [this, decide_eq_true (mul_neg_of_neg_of_pos hv h)]
      rfl
    · rw [hv, zero_mul, abs_zero, flushed_zero]
      cases neg a <;> simp
    · have : neg a = false := by
        by_contra hc
        rw [Bool.not_eq_false] at hc
        unfold val at hv
        rw [hc, if_pos rfl] at hv
        linarith [magVal_nonneg (mag a)]
      rw [this, decide_eq_false (not_lt.2 (mul_pos hv h).le)]
      rfl
  · have hma : mag a ≠ 0 := by
      unfold isInf infBits at hi
      rw [decide_eq_true_eq] at hi
      omega
    rw [hi, if_pos rfl, if_neg (by tauto)]
    refine ⟨isNaN_pack _ (le_refl _), fun _ => ?_, fun hf => ?_⟩
    · rw [key_pack _ (by decide), key_inf hi]
      cases neg a <;> rfl
    · have := (fin_not hf).2
      rw [hi] at this
      cases this

theorem mul_mono (ftz : Bool) {a b s : BitVec 32} (h : Le a b) (hs : isFin s = true) (hp : 0 < seen ftz s) :
    Le (mul ftz a s) (mul ftz b s) := by
  have h' := inp_mono ftz h
  have hs' := inp_fin ftz hs
  unfold seen at hp
  unfold mul
  generalize inp ftz a = a at *
  generalize inp ftz b = b at *
  generalize inp ftz s = c at *
  obtain ⟨h1, h2, h3⟩ := h'
  obtain ⟨a1, a2, a3⟩ := mul'_pos ftz h1 hs' hp
  obtain ⟨b1, b2, b3⟩ := mul'_pos ftz h2 hs' hp
  refine ⟨a1, b1, ?_⟩
  have ka := key_bounds a1
  have kb := key_bounds b1
  have ka' := key_bounds h1
  have kb' := key_bounds h2
  rcases kinds h1 with ha | ha
  · rcases kinds h2 with hb | hb
    · rw [a3 ha, b3 hb]
      exact rnd_mono ftz (mul_le_mul_of_nonneg_right (val_le ha hb h3) hp.le)
    · rw [b2 hb]
      have := key_inf hb
      have hfa : -2139095040 < key a := by
        unfold isFin infBits at ha
        rw [decide_eq_true_eq] at ha
        unfold key; split <;> omega
      split at this <;> omega
  · rw [a2 ha]
    have := key_inf ha
    rcases kinds h2 with hb | hb
    · have hfb : key b < 2139095040 := by
        unfold isFin infBits at hb
        rw [decide_eq_true_eq] at hb
        unfold key; split <;> omega
      split at this <;> omega
    · rw [b2 hb]; exact h3

theorem ofInt_mono {x y : BitVec 32} (h : x.toInt ≤ y.toInt) : Le (ofInt x) (ofInt y) := by
  have f : ∀ z : BitVec 32, isNaN (ofInt z) = false := fun z => (fin_not (ofInt_val z).1).1
  refine ⟨f x, f y, ?_⟩
  have e : ∀ z : BitVec 32, ofInt z = rnd false (decide ((z.toInt : Rat) < 0)) |(z.toInt : Rat)| := by
    intro z
    unfold ofInt rnd
    rw [show decide ((z.toInt : Rat) < 0) = decide (z.toInt < 0) by
      rw [decide_eq_decide]; exact_mod_cast Iff.rfl]
    rfl
  rw [e, e]
  exact rnd_mono false (by exact_mod_cast h)

/-- A conversion to integers keeps the order, infinities included. -/
theorem toInt_mono {r : Rat → Int} (hr : ∀ p q, p ≤ q → r p ≤ r q) {a b : BitVec 32} (h : Le a b) :
    (toInt r a).toInt ≤ (toInt r b).toInt := by
  obtain ⟨h1, h2, h3⟩ := h
  have hff : ¬ (false = true) := by decide
  unfold toInt
  rw [h1, h2, if_neg hff, if_neg hff]
  rcases kinds h1 with ha | ha
  · rcases kinds h2 with hb | hb
    · rw [(fin_not ha).2, (fin_not hb).2, if_neg (by decide), if_neg (by decide), satI32_toInt, satI32_toInt]
      have := hr _ _ (val_le ha hb h3)
      omega
    · rw [(fin_not ha).2, hb, if_neg (by decide), if_pos rfl, satI32_toInt, satI32_toInt]
      have hk := key_inf hb
      have hfa : -2139095040 < key a := by
        unfold isFin infBits at ha
        rw [decide_eq_true_eq] at ha
        unfold key; split <;> omega
      split at hk
      · omega
      · rename_i hn
        rw [if_neg hn]
        omega
  · rw [ha, if_pos rfl, satI32_toInt]
    have hk := key_inf ha
    rcases kinds h2 with hb | hb
    · rw [(fin_not hb).2, if_neg hff, satI32_toInt]
      have hfb : key b < 2139095040 := by
        unfold isFin infBits at hb
        rw [decide_eq_true_eq] at hb
        unfold key; split <;> omega
      split at hk
      · rename_i hn
        rw [if_pos hn]
        omega
      · omega
    · rw [hb, if_pos rfl, satI32_toInt]
      have hk' := key_inf hb
      split at hk <;> split at hk' <;> simp_all

end Gemmlowp.F32
