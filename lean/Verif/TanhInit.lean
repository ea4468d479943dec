import Verif.TanhStage
import Verif.Float32Proof
/-!
# The constructor of the tanh output stage: what its loops compute
-/
namespace Gemmlowp.TanhStage

open F32

theorem expo_scale {q : Rat} (h : 0 < q) (j : Int) : expo (q * pow2 j) = expo q + j := by
  obtain ⟨h1, h2⟩ := expo_bounds h
  have hp := pow2_pos j
  refine expo_eq ?_ ?_
  · rw [pow2_add]; exact mul_le_mul_of_nonneg_right h1 hp.le
  · rw [show expo q + j + 1 = expo q + 1 + j by omega, pow2_add]; exact mul_lt_mul_of_pos_right h2 hp

theorem rnPos_scale {q : Rat} (h : 0 < q) (j : Int) : rnPos (q * pow2 j) = rnPos q * pow2 j := by
  unfold rnPos
  rw [expo_scale h, show expo q + j - 52 = expo q - 52 + j by omega, pow2_add,
    mul_div_mul_right _ _ (pow2_pos j).ne', mul_assoc]

theorem rnPos_err {q : Rat} (h : 0 < q) : |rnPos q - q| ≤ q * pow2 (-53) := by
  obtain ⟨h1, _⟩ := expo_bounds h
  have hp := pow2_pos (expo q - 52)
  have hr := roundEven_err (q / pow2 (expo q - 52))
  have e1 : rnPos q - q = ((roundEven (q / pow2 (expo q - 52)) : Int) - q / pow2 (expo q - 52)) * pow2 (expo q - 52) := by
    unfold rnPos; rw [sub_mul, div_mul_cancel₀ _ hp.ne']
  rw [e1, abs_mul, abs_of_pos hp]
  have e2 : pow2 (expo q - 52) = pow2 (expo q) * pow2 (-52) := by rw [← pow2_add]; congr 1
  have e3 : pow2 (-52) = 2 * pow2 (-53) := by rw [← pow2_succ]; rfl
  have h53 := pow2_pos (-53)
  calc _ ≤ 1 / 2 * pow2 (expo q - 52) := mul_le_mul_of_nonneg_right hr hp.le
    _ = pow2 (expo q) * pow2 (-53) := by rw [e2, e3]; ring
    _ ≤ _ := mul_le_mul_of_nonneg_right h1 h53.le

theorem rnPos_exact {n : Nat} (h0 : 0 < n) (h : n ≤ 2 ^ 53) (j : Int) :
    rnPos ((n : Rat) * pow2 j) = (n : Rat) * pow2 j := by
  have hn : (0 : Rat) < n := by exact_mod_cast h0
  rw [rnPos_scale hn]
  congr 1
  unfold rnPos
  have key : ∃ k : Int, (n : Rat) / pow2 (expo n - 52) = (k : Int) := by
    rcases Nat.lt_or_ge n (2 ^ 53) with hlt | hge
    · have hl := log2_bounds h0
      have hlog : n.log2 ≤ 52 := by
        by_contra hc
        have : 2 ^ 53 ≤ 2 ^ n.log2 := Nat.pow_le_pow_right (by decide) (by omega)
        omega
      have he : expo (n : Rat) = (n.log2 : Int) := by
        refine expo_eq ?_ ?_
        · rw [pow2_nat]; exact_mod_cast hl.1
        · rw [show (n.log2 : Int) + 1 = ((n.log2 + 1 : Nat) : Int) by push_cast; rfl, pow2_nat]; exact_mod_cast hl.2
      refine ⟨(n : Int) * 2 ^ (52 - n.log2), ?_⟩
      rw [he, div_eq_iff (pow2_pos _).ne']
      have : pow2 ((n.log2 : Int) - 52) * pow2 ((52 - n.log2 : Nat) : Int) = 1 := by
        rw [← pow2_add, ← pow2_zero]; congr 1; omega
      rw [pow2_nat] at this
      push_cast at this ⊢
      calc (n : Rat) = n * (pow2 ((n.log2 : Int) - 52) * 2 ^ (52 - n.log2)) := by rw [this, mul_one]
        _ = _ := by ring
    · have he : n = 2 ^ 53 := by omega
      subst he
      have he : expo ((2 ^ 53 : Nat) : Rat) = 53 := by
        refine expo_eq ?_ ?_
        · rw [show (53 : Int) = ((53 : Nat) : Int) by rfl, pow2_nat]
        · rw [show (53 : Int) + 1 = ((54 : Nat) : Int) by rfl, pow2_nat]; norm_num
      refine ⟨2 ^ 52, ?_⟩
      rw [he, show (53 : Int) - 52 = ((1 : Nat) : Int) by rfl, pow2_nat]; norm_num
  obtain ⟨k, hk⟩ := key
  rw [hk, roundEven_int, ← hk, div_mul_cancel₀ _ (pow2_pos _).ne']

/-- The bits of a rounded number. -/
theorem rnPos_form {q : Rat} (h : 0 < q) : ∃ n : Nat, 2 ^ 52 ≤ n ∧ n ≤ 2 ^ 53 ∧ rnPos q = (n : Rat) * pow2 (expo q - 52) := by
  obtain ⟨h1, h2⟩ := expo_bounds h
  have hp := pow2_pos (expo q - 52)
  have e1 : ((2 ^ 52 : Nat) : Rat) * pow2 (expo q - 52) = pow2 (expo q) := by
    rw [← pow2_nat, ← pow2_add]; congr 1; push_cast; ring
  have e2 : ((2 ^ 53 : Nat) : Rat) * pow2 (expo q - 52) = pow2 (expo q + 1) := by
    rw [← pow2_nat, ← pow2_add]; congr 1; push_cast; ring
  have l1 : ((2 ^ 52 : Int) : Rat) ≤ q / pow2 (expo q - 52) := by
    rw [le_div_iff₀ hp]; push_cast at e1 ⊢; rw [e1]; exact h1
  have l2 : q / pow2 (expo q - 52) ≤ ((2 ^ 53 : Int) : Rat) := by
    rw [div_le_iff₀ hp]; push_cast at e2 ⊢; rw [e2]; exact h2.le
  have r1 := roundEven_mono l1
  have r2 := roundEven_mono l2
  rw [roundEven_int] at r1 r2
  refine ⟨(roundEven (q / pow2 (expo q - 52))).toNat, by omega, by omega, ?_⟩
  unfold rnPos
  congr 1
  have : ((roundEven (q / pow2 (expo q - 52))).toNat : Int) = roundEven (q / pow2 (expo q - 52)) := by omega
  exact_mod_cast this.symm

theorem rnPos_pos {q : Rat} (h : 0 < q) : 0 < rnPos q := by
  obtain ⟨n, h1, _, e⟩ := rnPos_form h
  rw [e]
  have : (0 : Rat) < n := by exact_mod_cast (by omega : 0 < n)
  exact mul_pos this (pow2_pos _)

theorem rnPos_idem {q : Rat} (h : 0 < q) : rnPos (rnPos q) = rnPos q := by
  obtain ⟨n, h1, h2, e⟩ := rnPos_form h
  rw [e, rnPos_exact (by omega) h2]

/-- Rounding does not fall below a power of two. -/
theorem rnPos_ge {q : Rat} (h : 0 < q) {j : Int} (hj : pow2 j ≤ q) : pow2 j ≤ rnPos q := by
  obtain ⟨n, h1, _, e⟩ := rnPos_form h
  have hje : j ≤ expo q := by
    by_contra hc
    have := pow2_le (show expo q + 1 ≤ j by omega)
    have := (expo_bounds h).2
    linarith
  refine le_trans (pow2_le hje) ?_
  rw [e]
  have e1 : ((2 ^ 52 : Nat) : Rat) * pow2 (expo q - 52) = pow2 (expo q) := by
    rw [← pow2_nat, ← pow2_add]; congr 1; push_cast; ring
  rw [← e1]
  exact mul_le_mul_of_nonneg_right (by exact_mod_cast h1) (pow2_pos _).le

theorem rn64_pos {q : Rat} (h : 0 < q) : rn64 q = rnPos q := by
  unfold rn64; rw [if_neg h.ne', if_neg (not_lt.2 h.le)]

/-- A rounded number times a power of two. -/
theorem rn64_step {q : Rat} (h : 0 < q) (j : Int) : rn64 (rnPos q * pow2 j) = rnPos (q * pow2 j) := by
  rw [rn64_pos (mul_pos (rnPos_pos h) (pow2_pos j)), rnPos_scale (rnPos_pos h), rnPos_idem h, rnPos_scale h]

section
variable {a : Nat}

/-- `2^i / a`. -/
def scaled (a : Nat) (i : Int) : Rat := 1 / (a : Rat) * pow2 i

theorem scaled_pos (ha : 0 < a) (i : Int) : 0 < scaled a i := by
  have : (0 : Rat) < a := by exact_mod_cast ha
  exact mul_pos (by positivity) (pow2_pos i)

theorem scaled_add (i j : Int) : scaled a i * pow2 j = scaled a (i + j) := by
  unfold scaled; rw [pow2_add, mul_assoc]

theorem scaled_lt_half (ha : 0 < a) (ha' : a < 2 ^ 31) (i : Nat) :
    rnPos (scaled a i) < 1 / 2 ↔ 2 ^ (i + 1) < a := by
  have hp := scaled_pos ha i
  have haq : (0 : Rat) < a := by exact_mod_cast ha
  have es : scaled a i = (2 ^ i : Nat) / (a : Rat) := by unfold scaled; rw [pow2_nat]; ring
  constructor
  · intro h
    by_contra hc
    have : pow2 (-1) ≤ scaled a i := by
      rw [es, show pow2 (-1) = 1 / 2 by unfold pow2; norm_num, div_le_div_iff₀ (by norm_num) haq]
      have : a ≤ 2 ^ i * 2 := by rw [← Nat.pow_succ]; omega
      have : (a : Rat) ≤ 2 ^ i * 2 := by exact_mod_cast this
      push_cast; linarith
    have := rnPos_ge hp this
    rw [show pow2 (-1) = 1 / 2 by unfold pow2; norm_num] at this
    linarith
  · intro h
    have h1 : scaled a i ≤ 1 / 2 - 1 / (2 * (a : Rat)) := by
      rw [es, le_sub_iff_add_le, div_add_div _ _ haq.ne' (by positivity), div_le_div_iff₀ (by positivity) (by norm_num)]
      have : 2 ^ i * 2 + 1 ≤ a := by rw [← Nat.pow_succ]; omega
      have : (2 : Rat) ^ i * 2 + 1 ≤ a := by exact_mod_cast this
      push_cast
      nlinarith
    have h2 := (abs_le.1 (rnPos_err hp)).2
    have h3 : pow2 (-53) = 1 / 2 ^ 53 := by rw [pow2_eq]; norm_num
    have h4 : (1 : Rat) / 2 ^ 32 < 1 / (2 * a) := by
      rw [div_lt_div_iff_of_pos_left (by norm_num) (by positivity) (by positivity)]
      have : (a : Rat) < 2 ^ 31 := by exact_mod_cast ha'
      linarith
    rw [h3] at h2
    have h5 : scaled a i * (1 / 2 ^ 53) ≤ 1 / 2 * (1 / 2 ^ 53) := by
      apply mul_le_mul_of_nonneg_right _ (by norm_num)
      have : (0 : Rat) < 1 / (2 * a) := by positivity
      linarith
    norm_num at h2 h4 h5 h1 ⊢
    linarith

theorem grow_ok (ha : 0 < a) (ha' : a < 2 ^ 31) {e : Nat} (h1 : a ≤ 2 ^ (e + 1)) (h2 : e = 0 ∨ 2 ^ e < a) :
    ∀ (n i : Nat), i ≤ e → e < i + n →
      grow n (rnPos (scaled a i)) i = .ok (rnPos (scaled a e), (e : Int))
  | 0, i, hi, hn => by omega
  | n + 1, i, hi, hn => by
    unfold grow
    have hc := scaled_lt_half ha ha' i
    rcases Nat.lt_or_ge i e with hlt | hge
    · have : 2 ^ (i + 1) < a := by
        have : 2 ^ (i + 1) ≤ 2 ^ e := Nat.pow_le_pow_right (by decide) (by omega)
        omega
      rw [if_pos (hc.2 this)]
      have e2 : rn64 (rnPos (scaled a i) * 2) = rnPos (scaled a ((i + 1 : Nat) : Int)) := by
        rw [show (2 : Rat) = pow2 1 by unfold pow2; norm_num, rn64_step (scaled_pos ha i), scaled_add]; rfl
      rw [e2]
      exact grow_ok ha ha' h1 h2 n (i + 1) hlt (by omega)
    · have : i = e := by omega
      subst this
      rw [if_neg (fun h => absurd (hc.1 h) (by omega))]

theorem shrink_ok (ha : 0 < a) (ha' : a < 2 ^ 31) {k : Nat} (h1 : 2 ^ k ≤ a) (h2 : a < 2 ^ (k + 1)) :
    ∀ (n i : Nat), i ≤ k + 1 → k + 1 < i + n →
      shrink n ((a : Rat) * pow2 (-(i : Int))) i = .ok ((a : Rat) * pow2 (-((k + 1 : Nat) : Int)), ((k + 1 : Nat) : Int))
  | 0, i, hi, hn => by omega
  | n + 1, i, hi, hn => by
    unfold shrink
    have hc : 1 ≤ (a : Rat) * pow2 (-(i : Int)) ↔ 2 ^ i ≤ a := by
      have e1 : pow2 (-(i : Int)) * (2 ^ i : Nat) = 1 := by
        rw [← pow2_nat, ← pow2_add, ← pow2_zero]; congr 1; omega
      have hp := pow2_pos (-(i : Int))
      constructor
      · intro h
        have : ((2 ^ i : Nat) : Rat) ≤ a := by
          have h' := mul_le_mul_of_nonneg_right h (show (0 : Rat) ≤ (2 ^ i : Nat) by positivity)
          rw [mul_assoc, e1] at h'
          linarith
        exact_mod_cast this
      · intro h
        have : ((2 ^ i : Nat) : Rat) ≤ a := by exact_mod_cast h
        have h' := mul_le_mul_of_nonneg_right this hp.le
        rw [mul_comm, e1] at h'
        exact h'
    rcases Nat.lt_or_ge i (k + 1) with hlt | hge
    · have : 2 ^ i ≤ a := le_trans (Nat.pow_le_pow_right (by decide) (by omega)) h1
      rw [if_pos (hc.2 this)]
      have e2 : rn64 ((a : Rat) * pow2 (-(i : Int)) * (1 / 2)) = (a : Rat) * pow2 (-((i + 1 : Nat) : Int)) := by
        rw [show (1 / 2 : Rat) = pow2 (-1) by unfold pow2; norm_num, mul_assoc, ← pow2_add,
          show -(i : Int) + -1 = -((i + 1 : Nat) : Int) by push_cast; ring]
        have haq : (0 : Rat) < a := by exact_mod_cast ha
        rw [rn64_pos (mul_pos haq (pow2_pos _)), rnPos_exact ha (by omega)]
      rw [e2]
      exact shrink_ok ha ha' h1 h2 n (i + 1) hlt (by omega)
    · have : i = k + 1 := by omega
      subst this
      rw [if_neg (fun h => absurd (hc.1 h) (by omega))]

end

theorem roundAway_nonneg {q : Rat} (h : 0 ≤ q) : |(roundAway q : Rat) - q| ≤ 1 / 2 := by
  unfold roundAway
  rw [if_neg (not_lt.2 h)]
  obtain ⟨h1, h2⟩ := floor_spec (q + 1 / 2)
  rw [abs_le]
  constructor <;> linarith

theorem roundAway_int {n : Nat} : roundAway (n : Rat) = n := by
  have h := abs_le.1 (roundAway_nonneg (q := (n : Rat)) (by positivity))
  have h1 : ((roundAway (n : Rat) : Int) : Rat) < ((n + 1 : Int) : Rat) := by push_cast; linarith
  have h2 : ((n - 1 : Int) : Rat) < ((roundAway (n : Rat) : Int) : Rat) := by push_cast; linarith
  have h1' := Int.cast_lt.1 h1
  have h2' := Int.cast_lt.1 h2
  omega

/-- What the constructor computes for a positive amplitude. -/
theorem tanhInit_ok {z A : BitVec 32} (h : 1 ≤ A.toInt) : ∃ (e k : Nat) (R : Int),
    tanhInit z A = .ok (⟨z, A, BitVec.ofInt 32 R, e, BitVec.ofInt 32 (A.toInt * 2 ^ (30 - k)), ((k + 1 : Nat) : Int)⟩ :
      TanhParams) ∧
    2 ^ k ≤ A.toInt ∧ A.toInt < 2 ^ (k + 1) ∧ k ≤ 30 ∧
    A.toInt ≤ 2 ^ (e + 1) ∧ 2 ^ e ≤ A.toInt ∧ |R * A.toInt - 2 ^ (31 + e)| ≤ A.toInt ∧ 2 ^ 30 ≤ R ∧ R ≤ 2 ^ 31 - 1 := by
  have hA := A.toInt_lt
  obtain ⟨a, ea⟩ := Int.eq_ofNat_of_zero_le (show 0 ≤ A.toInt by omega)
  rw [ea] at h hA ⊢
  have ha : 0 < a := by omega
  have ha' : a < 2 ^ 31 := by norm_num at hA ⊢; omega
  have haq : (0 : Rat) < a := by exact_mod_cast ha
  obtain ⟨k1, k2⟩ := log2_bounds ha
  have hk : a.log2 ≤ 30 := by
    by_contra hc
    have : 2 ^ 31 ≤ 2 ^ a.log2 := Nat.pow_le_pow_right (by decide) (by omega)
    omega
  obtain ⟨e, e1, e2, e3, he⟩ : ∃ e : Nat, a ≤ 2 ^ (e + 1) ∧ (e = 0 ∨ 2 ^ e < a) ∧ 2 ^ e ≤ a ∧ e ≤ 30 := by
    rcases Nat.lt_or_ge 1 a with h1 | h1
    · obtain ⟨l1, l2⟩ := log2_bounds (show 0 < a - 1 by omega)
      refine ⟨(a - 1).log2, by omega, Or.inr (by omega), by omega, ?_⟩
      by_contra hc
      have : 2 ^ 31 ≤ 2 ^ (a - 1).log2 := Nat.pow_le_pow_right (by decide) (by omega)
      omega
    · exact ⟨0, by omega, Or.inl rfl, by omega, by omega⟩
  have hs := scaled_pos ha e
  have hq := scaled_pos ha ((e : Int) + 31)
  have hqe : scaled a ((e : Int) + 31) * a = (2 ^ (31 + e) : Nat) := by
    unfold scaled
    rw [show (e : Int) + 31 = ((31 + e : Nat) : Int) by push_cast; ring, pow2_nat]
    field_simp
  have hqle : scaled a ((e : Int) + 31) ≤ 2 ^ 31 := by
    by_contra hc
    have := mul_lt_mul_of_pos_right (not_le.1 hc) haq
    rw [hqe, Nat.pow_add] at this
    have e3' : ((2 ^ e : Nat) : Rat) ≤ a := by exact_mod_cast e3
    push_cast at this e3'
    nlinarith
  have hqge : pow2 30 ≤ scaled a ((e : Int) + 31) := by
    rw [show (30 : Int) = ((30 : Nat) : Int) by rfl, pow2_nat]
    by_contra hc
    have := mul_lt_mul_of_pos_right (not_le.1 hc) haq
    rw [hqe, show 31 + e = 30 + (e + 1) by omega, Nat.pow_add] at this
    have e1' : (a : Rat) ≤ (2 ^ (e + 1) : Nat) := by exact_mod_cast e1
    push_cast at this e1'
    nlinarith
  have herr := abs_le.1 (rnPos_err hq)
  have hge := rnPos_ge hq hqge
  rw [show (30 : Int) = ((30 : Nat) : Int) by rfl, pow2_nat] at hge
  have hra := abs_le.1 (roundAway_nonneg (rnPos_pos hq).le)
  have h53 : pow2 (-53) = 1 / 2 ^ 53 := by rw [pow2_eq]; norm_num
  rw [h53] at herr
  have hf : fromDouble 32 0 (rnPos (scaled a e)) =
      BitVec.ofInt 32 (min (max (roundAway (rnPos (scaled a ((e : Int) + 31)))) (-2147483648)) 2147483647) := by
    unfold fromDouble
    rw [rn64_step hs, scaled_add]
    rfl
  have hN : fromDouble 32 0 ((a : Rat) * pow2 (-((a.log2 + 1 : Nat) : Int))) = BitVec.ofInt 32 ((a : Int) * 2 ^ (30 - a.log2)) := by
    unfold fromDouble
    have e4 : (a : Rat) * pow2 (-((a.log2 + 1 : Nat) : Int)) * pow2 (((32 : Nat) : Int) - 1 - (0 : Nat)) = ((a * 2 ^ (30 - a.log2) : Nat) : Rat) := by
      rw [mul_assoc, ← pow2_add, show -((a.log2 + 1 : Nat) : Int) + (((32 : Nat) : Int) - 1 - (0 : Nat)) = ((30 - a.log2 : Nat) : Int) by omega, pow2_nat]
      push_cast; rfl
    have hlt : a * 2 ^ (30 - a.log2) < 2 ^ 31 := by
      calc a * 2 ^ (30 - a.log2) < 2 ^ (a.log2 + 1) * 2 ^ (30 - a.log2) := Nat.mul_lt_mul_of_pos_right k2 (by positivity)
        _ = 2 ^ 31 := by rw [← Nat.pow_add]; congr 1; omega
    have hgt : 0 < a * 2 ^ (30 - a.log2) := by positivity
    rw [e4, rn64_pos (by exact_mod_cast hgt)]
    have := rnPos_exact hgt (by omega) 0
    rw [pow2_zero, mul_one] at this
    rw [this, roundAway_int, show Fx.minW 32 = -2147483648 from rfl, show Fx.maxW 32 = 2147483647 from rfl]
    congr 1
    push_cast
    have hlt' : (a : Int) * 2 ^ (30 - a.log2) < 2 ^ 31 := by exact_mod_cast hlt
    have hgt' : 0 < (a : Int) * 2 ^ (30 - a.log2) := by exact_mod_cast hgt
    norm_num at hlt' ⊢
    omega
  refine ⟨e, a.log2, min (max (roundAway (rnPos (scaled a ((e : Int) + 31)))) (-2147483648)) 2147483647, ?_,
    by exact_mod_cast k1, by exact_mod_cast k2, hk, by exact_mod_cast e1, by exact_mod_cast e3, ?_⟩
  · unfold tanhInit
    rw [ea, if_neg (by omega)]
    have g1 : grow 64 (rn64 (1 / (((a : Nat) : Int) : Rat))) 0 = .ok (rnPos (scaled a e), (e : Int)) := by
      have := grow_ok ha ha' e1 e2 64 0 (by omega) (by omega)
      have e0 : scaled a ((0 : Nat) : Int) = 1 / (((a : Nat) : Int) : Rat) := by
        unfold scaled; rw [show ((0 : Nat) : Int) = 0 by rfl, pow2_zero, mul_one]; push_cast; rfl
      rw [e0] at this
      rw [rn64_pos (by push_cast; positivity)]
      exact this
    have g2 : shrink 64 (((a : Nat) : Int) : Rat) 0 =
        .ok ((a : Rat) * pow2 (-((a.log2 + 1 : Nat) : Int)), ((a.log2 + 1 : Nat) : Int)) := by
      have := shrink_ok ha ha' k1 k2 64 0 (by omega) (by omega)
      rw [show -((0 : Nat) : Int) = 0 by rfl, pow2_zero, mul_one] at this
      exact this
    rw [g1, g2, ← hf, ← hN]
    rfl
  · generalize hR0 : roundAway (rnPos (scaled a ((e : Int) + 31))) = R0 at *
    generalize rnPos (scaled a ((e : Int) + 31)) = X at *
    generalize hQ : scaled a ((e : Int) + 31) = Q at *
    have b1 : ((2 ^ 30 : Int) : Rat) - 1 < R0 := by push_cast at hge ⊢; linarith
    have b2 : (R0 : Rat) < ((2 ^ 31 : Int) : Rat) + 1 := by
      push_cast; norm_num at herr hqle ⊢; linarith
    have b1' : 2 ^ 30 - 1 < R0 := by exact_mod_cast b1
    have b2' : R0 < 2 ^ 31 + 1 := by exact_mod_cast b2
    norm_num at b1' b2'
    have d1 : |(R0 : Rat) - Q| ≤ 3 / 4 := by
      rw [abs_le]; norm_num at herr hqle ⊢; constructor <;> linarith
    refine ⟨?_, by norm_num; omega, by norm_num⟩
    have hd : |((min (max R0 (-2147483648)) 2147483647 : Int) : Rat) - Q| ≤ 1 := by
      rw [abs_le] at d1 ⊢
      rcases lt_or_ge R0 2147483648 with hl | hl
      · rw [show min (max R0 (-2147483648)) 2147483647 = R0 by omega]
        constructor <;> linarith
      · have : R0 = 2147483648 := by omega
        subst this
        rw [show min (max (2147483648 : Int) (-2147483648)) 2147483647 = 2147483647 by decide]
        norm_num at d1 hqle ⊢
        constructor <;> linarith
    generalize min (max R0 (-2147483648)) 2147483647 = R at hd
    have : |(R : Rat) * a - (2 ^ (31 + e) : Nat)| ≤ a := by
      rw [← hqe, ← sub_mul, abs_mul, abs_of_pos haq]
      nlinarith
    exact_mod_cast this

end Gemmlowp.TanhStage
