import Verif.CacheCount
import Verif.XorshiftTable
import Mathlib.Dynamics.PeriodicPts.Defs
import Mathlib.Data.Nat.Prime.Basic
import Mathlib.Tactic.NormNum.Prime
/-!
# C79, C80: the cache counter tool
-/
namespace Gemmlowp.CacheCount

/-! ## The random generator is linear over the field of two elements -/

/-- The linear map with these images of the unit vectors. -/
def apply : List Nat → Nat → Nat
  | [], _ => 0
  | c :: cs, x => x % 2 * c ^^^ apply cs (x / 2)

theorem xor4 (a b c d : Nat) : (a ^^^ b) ^^^ (c ^^^ d) = (a ^^^ c) ^^^ (b ^^^ d) := by
  rw [Nat.xor_assoc, ← Nat.xor_assoc b, Nat.xor_comm b c, Nat.xor_assoc c, ← Nat.xor_assoc]

theorem bit_mul_xor (x y c : Nat) : (x ^^^ y) % 2 * c = x % 2 * c ^^^ y % 2 * c := by
  have h := @Nat.xor_mod_two_eq_one x y
  rcases Nat.mod_two_eq_zero_or_one x with hx | hx <;> rcases Nat.mod_two_eq_zero_or_one y with hy | hy
  · have : (x ^^^ y) % 2 = 0 := by omega
    simp [this, hx, hy]
  · have : (x ^^^ y) % 2 = 1 := by omega
    simp [this, hx, hy]
  · have : (x ^^^ y) % 2 = 1 := by omega
    simp [this, hx, hy]
  · have : (x ^^^ y) % 2 = 0 := by omega
    simp [this, hx, hy]

theorem apply_xor (cs : List Nat) : ∀ x y, apply cs (x ^^^ y) = apply cs x ^^^ apply cs y := by
  induction cs with
  | nil => intro x y; simp [apply]
  | cons c cs ih =>
    intro x y
    simp only [apply]
    rw [bit_mul_xor, Nat.xor_div_two, ih, xor4]

theorem apply_zero (cs : List Nat) : apply cs 0 = 0 := by
  have := apply_xor cs 0 0
  simpa using this

theorem apply_apply (as bs : List Nat) : ∀ x, apply (bs.map (apply as)) x = apply as (apply bs x) := by
  induction bs with
  | nil => intro x; simp [apply, apply_zero]
  | cons b bs ih =>
    intro x
    simp only [List.map_cons, apply]
    rw [apply_xor, ih]
    rcases Nat.mod_two_eq_zero_or_one x with hx | hx <;> simp [hx, apply_zero]

/-- Images of the unit vectors under `f`. -/
def columns (f : Nat → Nat) : Nat → List Nat
  | 0 => []
  | n + 1 => f 1 :: columns (fun y => f (2 * y)) n

theorem split_bit (x : Nat) : x % 2 ^^^ 2 * (x / 2) = x := by
  apply Nat.eq_of_testBit_eq
  intro i
  cases i with
  | zero => simp [Nat.testBit_zero]
  | succ i => simp [Nat.testBit_succ, Nat.xor_div_two]

theorem apply_columns : ∀ (n : Nat) (f : Nat → Nat), (∀ x y, f (x ^^^ y) = f x ^^^ f y) → ∀ x, x < 2 ^ n →
    apply (columns f n) x = f x := by
  intro n
  induction n with
  | zero =>
    intro f hf x hx
    have h0 := hf 0 0
    rw [Nat.xor_self] at h0
    have : x = 0 := by omega
    subst this
    rw [columns, apply, h0, Nat.xor_self]
  | succ n ih =>
    intro f hf x hx
    have h0 := hf 0 0
    rw [Nat.xor_self, Nat.xor_self] at h0
    rw [columns, apply, ih (fun y => f (2 * y)) ?_ (x / 2) (by rw [Nat.pow_succ] at hx; omega)]
    · conv_rhs => rw [← split_bit x, hf]
      congr 1
      rcases Nat.mod_two_eq_zero_or_one x with hx | hx <;> simp [hx, h0]
    · intro x y
      have : 2 * (x ^^^ y) = 2 * x ^^^ 2 * y := by
        have := @Nat.shiftLeft_xor_distrib 1 x y
        simpa [Nat.shiftLeft_eq, Nat.mul_comm] using this
      show f (2 * (x ^^^ y)) = _
      rw [this, hf]

/-- The step of the generator on numbers. -/
def stepN (x : Nat) : Nat :=
  let a := x ^^^ (x <<< 13) % 2 ^ 32
  let b := a ^^^ (a >>> 17)
  b ^^^ (b <<< 5) % 2 ^ 32

theorem toNat_left (x : BitVec 32) (n : Nat) : (x ^^^ (x <<< n)).toNat = x.toNat ^^^ (x.toNat <<< n) % 2 ^ 32 := by
  rw [BitVec.toNat_xor, BitVec.toNat_shiftLeft]

theorem toNat_right (x : BitVec 32) (n : Nat) : (x ^^^ (x >>> n)).toNat = x.toNat ^^^ (x.toNat >>> n) := by
  rw [BitVec.toNat_xor, BitVec.toNat_ushiftRight]

theorem xorshift_toNat (x : BitVec 32) : (xorshift x).toNat = stepN x.toNat := by
  unfold xorshift stepN
  dsimp only
  rw [toNat_left, toNat_right, toNat_left]

theorem left_xor (n m x y : Nat) : (x ^^^ y) ^^^ ((x ^^^ y) <<< n) % 2 ^ m =
    (x ^^^ (x <<< n) % 2 ^ m) ^^^ (y ^^^ (y <<< n) % 2 ^ m) := by
  rw [Nat.shiftLeft_xor_distrib, Nat.xor_mod_two_pow, xor4]

theorem right_xor (n x y : Nat) : (x ^^^ y) ^^^ ((x ^^^ y) >>> n) = (x ^^^ (x >>> n)) ^^^ (y ^^^ (y >>> n)) := by
  rw [Nat.shiftRight_xor_distrib, xor4]

theorem stepN_xor (x y : Nat) : stepN (x ^^^ y) = stepN x ^^^ stepN y := by
  unfold stepN
  dsimp only
  rw [left_xor 13 32 x y, right_xor 17, left_xor 5 32]

/-- The table starts with the step, and each row is the square of the one before. -/
def squares : List (List Nat) → Bool
  | a :: b :: rest => b == a.map (apply a) && squares (b :: rest)
  | _ => true

theorem table_head : table.head? = some (columns stepN 32) := by decide +kernel
theorem table_squares : squares table = true := by decide +kernel

/-- `e` steps, by the bits of `e`. -/
def steps : List (List Nat) → Nat → Nat → Nat
  | [], _, x => x
  | a :: rest, e, x => steps rest (e / 2) (if e % 2 = 1 then apply a x else x)

theorem steps_eq : ∀ (t : List (List Nat)) (a : List Nat), squares (a :: t) = true → ∀ e, e < 2 ^ (t.length + 1) →
    ∀ x, steps (a :: t) e x = (apply a)^[e] x := by
  intro t
  induction t with
  | nil =>
    intro a _ e he x
    have : e = 0 ∨ e = 1 := by simp at he; omega
    rcases this with rfl | rfl <;> simp [steps]
  | cons b t ih =>
    intro a h e he x
    simp only [squares, Bool.and_eq_true, beq_iff_eq] at h
    rw [steps, ih b h.2 (e / 2) (by simp only [List.length_cons] at he; rw [Nat.pow_succ] at he; omega)]
    have hb : apply b = (apply a)^[2] := by
      funext y
      rw [h.1, apply_apply]
      rfl
    rw [hb, ← Function.iterate_mul]
    have he2 := Nat.div_add_mod e 2
    split
    · rename_i h1
      rw [← Function.iterate_succ_apply, show (2 * (e / 2)).succ = e by omega]
    · rw [show 2 * (e / 2) = e by omega]

theorem iterate_toNat (n : Nat) : ∀ x : BitVec 32, (xorshift^[n] x).toNat = (apply (columns stepN 32))^[n] x.toNat := by
  induction n with
  | zero => intro x; rfl
  | succ n ih =>
    intro x
    rw [Function.iterate_succ_apply, Function.iterate_succ_apply, ih, xorshift_toNat,
      apply_columns 32 stepN stepN_xor _ x.isLt]

theorem iterate_steps (e : Nat) (he : e < 2 ^ 32) : (xorshift^[e] 1).toNat = steps table e 1 := by
  have h1 := table_head
  have h2 := table_squares
  have h3 : table.length = 32 := by decide +kernel
  match table, h1, h2, h3 with
  | a :: t, h1, h2, h3 =>
    simp only [List.head?_cons, Option.some.injEq] at h1
    simp only [List.length_cons] at h3
    rw [steps_eq t a h2 e (by rw [h3]; exact he), iterate_toNat, h1]
    rfl

/-- After 2^32-1 steps the generator is back at 1, but not after a 3rd, 5th, 17th, 257th or 65537th part of them. -/
theorem steps_values : steps table 4294967295 1 = 1 ∧ steps table (4294967295 / 3) 1 ≠ 1 ∧
    steps table (4294967295 / 5) 1 ≠ 1 ∧ steps table (4294967295 / 17) 1 ≠ 1 ∧
    steps table (4294967295 / 257) 1 ≠ 1 ∧ steps table (4294967295 / 65537) 1 ≠ 1 := by decide +kernel

theorem one_toNat {x : BitVec 32} : x = 1 ↔ x.toNat = 1 :=
  ⟨fun h => by rw [h]; rfl, fun h => BitVec.eq_of_toNat_eq h⟩

theorem prime_factor {q : Nat} (hq : q ≠ 1) (hd : q ∣ 4294967295) : 3 ∣ q ∨ 5 ∣ q ∨ 17 ∣ q ∨ 257 ∣ q ∨ 65537 ∣ q := by
  obtain ⟨p, hp, hpq⟩ := Nat.exists_prime_and_dvd hq
  have h : p ∣ 3 * 5 * 17 * 257 * 65537 := Nat.dvd_trans hpq hd
  have e : ∀ r, Nat.Prime r → p ∣ r → r ∣ q := fun r hr h => by
    rw [← (Nat.prime_dvd_prime_iff_eq hp hr).1 h]; exact hpq
  rcases hp.dvd_mul.1 h with h | h
  · rcases hp.dvd_mul.1 h with h | h
    · rcases hp.dvd_mul.1 h with h | h
      · rcases hp.dvd_mul.1 h with h | h
        · exact .inl (e 3 (by norm_num) h)
        · exact .inr (.inl (e 5 (by norm_num) h))
      · exact .inr (.inr (.inl (e 17 (by norm_num) h)))
    · exact .inr (.inr (.inr (.inl (e 257 (by norm_num) h))))
  · exact .inr (.inr (.inr (.inr (e 65537 (by norm_num) h))))

/-- The generator, started at 1, has the greatest possible period. -/
theorem period : Function.minimalPeriod xorshift 1 = 4294967295 := by
  obtain ⟨v, v3, v5, v17, v257, v65537⟩ := steps_values
  have hN : Function.minimalPeriod xorshift 1 ∣ 4294967295 := by
    apply Function.IsPeriodicPt.minimalPeriod_dvd
    show xorshift^[4294967295] 1 = 1
    rw [one_toNat, iterate_steps _ (by decide), v]
  obtain ⟨q, hq⟩ := hN
  have no : ∀ p, 0 < p → p ∣ q → p ∣ 4294967295 → steps table (4294967295 / p) 1 ≠ 1 → False := by
    intro p hp ⟨r, hr⟩ ⟨s, hs⟩ hne
    apply hne
    have hlt : 4294967295 / p < 2 ^ 32 := Nat.lt_of_le_of_lt (Nat.div_le_self _ _) (by decide)
    rw [← iterate_steps _ hlt, ← one_toNat]
    apply Function.isPeriodicPt_iff_minimalPeriod_dvd.2
    refine ⟨r, ?_⟩
    rw [hq, hr, Nat.mul_left_comm, Nat.mul_div_cancel_left _ hp]
  by_cases h1 : q = 1
  · rw [h1, Nat.mul_one] at hq
    exact hq.symm
  · exfalso
    rcases prime_factor h1 ⟨_, by rw [Nat.mul_comm]; exact hq⟩ with h | h | h | h | h
    · exact no 3 (by norm_num) h (by norm_num) v3
    · exact no 5 (by norm_num) h (by norm_num) v5
    · exact no 17 (by norm_num) h (by norm_num) v17
    · exact no 257 (by norm_num) h (by norm_num) v257
    · exact no 65537 (by norm_num) h (by norm_num) v65537

/-- No state of one period occurs twice. -/
theorem states_distinct {i j : Nat} (hi : i < 4294967295) (hj : j < 4294967295)
    (h : xorshift^[i] 1 = xorshift^[j] 1) : i = j := by
  have := @Function.iterate_injOn_Iio_minimalPeriod _ xorshift 1
  rw [period] at this
  exact this hi hj h

/-- 0 does not occur: its successor is 0, and the generator comes back to 1. -/
theorem states_nonzero (i : Nat) : xorshift^[i] 1 ≠ 0 := by
  intro h
  have z : ∀ n, xorshift^[n] 0 = 0 := by
    intro n
    induction n with
    | zero => rfl
    | succ n ih => rw [Function.iterate_succ_apply]; exact ih
  have hp : xorshift^[4294967295 * (i + 1)] 1 = 1 := by
    have : Function.IsPeriodicPt xorshift (4294967295 * (i + 1)) 1 :=
      Function.isPeriodicPt_iff_minimalPeriod_dvd.2 ⟨i + 1, by rw [period]⟩
    exact this
  rw [show 4294967295 * (i + 1) = (4294967295 * (i + 1) - i) + i by omega, Function.iterate_add_apply, h, z] at hp
  exact absurd hp (by decide)

/-! ## The loop -/

theorem and_neg64 (y : BitVec 32) : (y &&& (-64)).toNat = 64 * (y.toNat / 64) := by
  have hb : ∀ i < 32, (-64 : BitVec 32).getLsbD i = decide (6 ≤ i) := by decide
  have : y &&& (-64 : BitVec 32) = (y >>> 6) <<< 6 := by
    apply BitVec.eq_of_getLsbD_eq
    intro i hi
    rw [BitVec.getLsbD_and, hb i hi, BitVec.getLsbD_shiftLeft, BitVec.getLsbD_ushiftRight]
    by_cases h6 : 6 ≤ i
    · simp [h6, hi, show ¬ i < 6 by omega, show 6 + (i - 6) = i by omega]
    · simp [h6, show i < 6 by omega]
  rw [this, BitVec.toNat_shiftLeft, BitVec.toNat_ushiftRight, Nat.shiftRight_eq_div_pow, Nat.shiftLeft_eq]
  have := y.isLt
  omega

/-- The 32-bit number at a place of the buffer, little end first. -/
def word (buf : Array (BitVec 8)) (o : Nat) : Nat :=
  let b (i : Nat) : Nat := (buf[o + i]?.getD 0).toNat
  b 0 + 256 * b 1 + 65536 * b 2 + 16777216 * b 3

theorem toNat_app {w v : Nat} (x : BitVec w) (y : BitVec v) : (x ++ y).toNat = 2 ^ v * x.toNat + y.toNat := by
  rw [BitVec.toNat_append, ← Nat.shiftLeft_add_eq_or_of_lt y.isLt, Nat.shiftLeft_eq, Nat.mul_comm]

theorem load8_word {buf : Array (BitVec 8)} {o : Nat} (h : o + 8 ≤ buf.size) :
    ∃ x, load8 buf o = .ok x ∧ x.toNat % 4294967296 = word buf o := by
  unfold load8
  rw [dif_pos h]
  refine ⟨_, rfl, ?_⟩
  simp only [toNat_app, word]
  have e : ∀ i (hi : i < 8), buf[o + i]? = some (buf[o + i]'(by omega)) := fun i hi => Array.getElem?_eq_getElem _
  rw [e 0 (by omega), e 1 (by omega), e 2 (by omega), e 3 (by omega)]
  simp only [Option.getD_some, Nat.add_zero]
  have h0 := (buf[o]'(by omega)).isLt
  have h1 := (buf[o + 1]'(by omega)).isLt
  have h2 := (buf[o + 2]'(by omega)).isLt
  have h3 := (buf[o + 3]'(by omega)).isLt
  omega

/-- What a run of the loop from `r` looks like: `n` accesses, the generator goes on by one step for each, all loads in
whole lines of the first `size` bytes, at the remainder of generator and data; the data are the sum of the words that have
been loaded. -/
structure Run (buf : Array (BitVec 8)) (size n : Nat) (w0 m : BitVec 32) (l : List Access) : Prop where
  count : l.length = n
  rng : ∀ (i : Nat) (h : i < l.length), l[i].rng = xorshift^[i + 1] w0
  off : ∀ a ∈ l, a.off = 64 * ((a.rng ^^^ a.mix).toNat % size / 64)
  first : ∀ h : 0 < l.length, l[0].mix = m
  next : ∀ (i : Nat) (h : i + 1 < l.length), l[i + 1].mix.toNat = (l[i].mix.toNat + word buf l[i].off) % 4294967296

theorem body_ok {k : Nat} (h3 : 3 ≤ k) (h30 : k ≤ 30) {buf : Array (BitVec 8)} (hb : 2 ^ k ≤ buf.size) (r : Regs) :
    ∃ a d, body (BitVec.ofNat 32 (2 ^ k)) buf r = .ok (a, ⟨xorshift r.w0, d, r.accesses - 1⟩) ∧
      a.rng = xorshift r.w0 ∧ a.off = 64 * ((a.rng ^^^ a.mix).toNat % 2 ^ k / 64) ∧ a.mix = r.dummy.setWidth 32 ∧
      (d.setWidth 32).toNat = (a.mix.toNat + word buf a.off) % 4294967296 := by
  have hk : 2 ^ k < 2 ^ 32 := Nat.pow_lt_pow_right (by omega) (by omega)
  have h8 : 2 ^ 3 ∣ 2 ^ k := Nat.pow_dvd_pow 2 h3
  have hpos : 0 < 2 ^ k := Nat.pow_pos (by omega)
  have hm : (BitVec.ofNat 32 (2 ^ k) - 1).toNat = 2 ^ k - 1 := by
    have h1 : (1 : BitVec 32).toNat = 1 := rfl
    rw [BitVec.toNat_sub, BitVec.toNat_ofNat, h1, Nat.mod_eq_of_lt hk]
    omega
  have ho : ∀ w : BitVec 32, ((w &&& (BitVec.ofNat 32 (2 ^ k) - 1)) &&& (-64)).toNat = 64 * (w.toNat % 2 ^ k / 64) := by
    intro w
    rw [and_neg64, BitVec.toNat_and, hm, Nat.and_two_pow_sub_one_eq_mod]
  have hin : ∀ w : BitVec 32, ((w &&& (BitVec.ofNat 32 (2 ^ k) - 1)) &&& (-64)).toNat + 8 ≤ buf.size := by
    intro w
    rw [ho]
    have := Nat.mod_lt w.toNat hpos
    obtain ⟨c, hc⟩ := h8
    omega
  unfold body
  dsimp only
  obtain ⟨x, hx, hw⟩ := load8_word (hin (xorshift r.w0 ^^^ r.dummy.setWidth 32))
  rw [hx, ok_bind]
  refine ⟨_, _, rfl, rfl, ho _, rfl, ?_⟩
  dsimp only
  rw [← hw]
  simp only [BitVec.toNat_setWidth, BitVec.toNat_add]
  omega

theorem loop_run {k : Nat} (h3 : 3 ≤ k) (h30 : k ≤ 30) {buf : Array (BitVec 8)} (hb : 2 ^ k ≤ buf.size) :
    ∀ (n : Nat) (r : Regs), (r.accesses - 1).toNat = n →
      ∃ l, loop (BitVec.ofNat 32 (2 ^ k)) buf r = .ok l ∧ Run buf (2 ^ k) (n + 1) r.w0 (r.dummy.setWidth 32) l := by
  intro n
  induction n with
  | zero =>
    intro r hr
    obtain ⟨a, d, hbody, ha, ho, hm, hd⟩ := body_ok h3 h30 hb r
    have h0 : r.accesses - 1 = 0 := BitVec.eq_of_toNat_eq hr
    refine ⟨[a], ?_, rfl, ?_, ?_, fun _ => hm, fun i h => by simp at h⟩
    · rw [loop, hbody]
      exact if_pos h0
    · intro i h
      have : i = 0 := by simp at h; omega
      subst this
      exact ha
    · intro b hmem
      rw [List.mem_singleton.1 hmem]
      exact ho
  | succ n ih =>
    intro r hr
    obtain ⟨a, d, hbody, ha, ho, hm, hd⟩ := body_ok h3 h30 hb r
    have h0 : r.accesses - 1 ≠ 0 := fun h => by rw [h] at hr; exact absurd hr (by simp)
    have hn : (r.accesses - 1 - 1).toNat = n := by
      have h1 : (1 : BitVec 32).toNat = 1 := rfl
      generalize r.accesses - 1 = x at *
      have := x.isLt
      rw [BitVec.toNat_sub, h1]
      omega
    obtain ⟨l, hl, c1, c2, c3, c4, c5⟩ := ih ⟨xorshift r.w0, d, r.accesses - 1⟩ hn
    refine ⟨a :: l, ?_, ?_, ?_, ?_, fun _ => hm, ?_⟩
    · rw [loop, hbody]
      dsimp only
      rw [if_neg h0, hl]
      rfl
    · rw [List.length_cons, c1]
    · intro i h
      cases i with
      | zero => exact ha
      | succ i =>
        rw [List.getElem_cons_succ, c2 i (by simpa using h), ← Function.iterate_succ_apply]
    · intro b hmem
      rcases List.mem_cons.1 hmem with rfl | hmem
      · exact ho
      · exact c3 b hmem
    · intro i h
      cases i with
      | zero => rw [List.getElem_cons_succ, List.getElem_cons_zero, c4 (by simpa using h), hd]
      | succ i => rw [List.getElem_cons_succ, List.getElem_cons_succ, c5 i (by simpa using h)]

/-- **C79**: for every size that is a power of two from 8 bytes on, every buffer of at least this size with any contents and
every positive number of accesses, `Workload` reads nothing outside of the first `size` bytes, makes exactly so many
loads, each at the start of the line that the pseudorandom number mixed with the data selects (a constant and the sum of
the words loaded before), and no pseudorandom number is 0 or occurs twice. -/
theorem C79_workload {k : Nat} (h3 : 3 ≤ k) (h30 : k ≤ 30) (buf : Array (BitVec 8)) (hb : 2 ^ k ≤ buf.size) {n : Nat}
    (h1 : 1 ≤ n) (h2 : n ≤ 2147483647) :
    ∃ l, workload n ((2 ^ k : Nat) : Int) buf = .ok l ∧ l.length = n ∧
      (∀ a ∈ l, a.off % 64 = 0 ∧ a.off + 8 ≤ 2 ^ k ∧ a.off = 64 * ((a.rng ^^^ a.mix).toNat % 2 ^ k / 64)) ∧
      (∀ (i : Nat) (h : i < l.length), l[i].mix.toNat =
        (123456789 + ((l.take i).map (fun a => word buf a.off)).sum) % 4294967296) ∧
      (∀ a ∈ l, a.rng ≠ 0) ∧ (l.map (·.rng)).Nodup := by
  have hacc : ((BitVec.ofInt 32 (n : Int)) - 1).toNat = n - 1 := by
    have h1' : (1 : BitVec 32).toNat = 1 := rfl
    rw [BitVec.ofInt_natCast, BitVec.toNat_sub, BitVec.toNat_ofNat, h1', Nat.mod_eq_of_lt (by omega : n < 2 ^ 32)]
    omega
  obtain ⟨l, hl, c1, c2, c3, c4, c5⟩ := loop_run h3 h30 hb (n - 1) ⟨1, 123456789, BitVec.ofInt 32 (n : Int)⟩ hacc
  have hlen : l.length = n := by omega
  refine ⟨l, ?_, hlen, ?_, ?_, ?_, ?_⟩
  · unfold workload
    rw [BitVec.ofInt_natCast (n := 2 ^ k)]
    exact hl
  · intro a ha
    have := c3 a ha
    have hpos : 0 < 2 ^ k := Nat.pow_pos (by omega)
    have hlt := Nat.mod_lt (a.rng ^^^ a.mix).toNat hpos
    obtain ⟨c, hc⟩ : 2 ^ 3 ∣ 2 ^ k := Nat.pow_dvd_pow 2 h3
    refine ⟨by omega, by omega, this⟩
  · intro i
    induction i with
    | zero => intro h; rw [c4 h]; rfl
    | succ i ih =>
      intro h
      rw [c5 i h, ih (by omega), ← List.take_concat_get' l i (by omega), List.map_append, List.sum_append]
      simp only [List.map_cons, List.map_nil, List.sum_cons, List.sum_nil]
      omega
  · intro a ha
    obtain ⟨i, hi, rfl⟩ := List.getElem_of_mem ha
    rw [c2 i hi]
    exact states_nonzero _
  · rw [List.nodup_iff_injective_get]
    intro i j hij
    have hi := i.2
    have hj := j.2
    simp only [List.length_map] at hi hj
    simp only [List.get_eq_getElem, List.getElem_map] at hij
    rw [c2 _ hi, c2 _ hj] at hij
    have := states_distinct (by omega) (by omega) hij
    exact Fin.ext (by omega)

/-- The hypotheses of `C79_workload` can be met: eight accesses to 4096 bytes. -/
example : ∃ l, workload 8 4096 (Array.replicate 4096 3) = .ok l ∧ l.length = 8 := by
  obtain ⟨l, h, hl, _⟩ := C79_workload (k := 12) (n := 8) (by decide) (by decide) (Array.replicate 4096 3) (by simp)
    (by decide) (by decide)
  exact ⟨l, h, hl⟩

/-- **C79**, `main`: it goes through thirteen sizes and never reads outside of its buffer. -/
theorem C79_main (buf : Array (BitVec 8)) (hb : buf.size = 16777216) :
    ∃ s, sizes 4096 13 = .ok s ∧ s.length = 13 ∧
      ∀ size ∈ s, ∃ l, workload 100000000 size buf = .ok l ∧ l.length = 100000000 ∧ ∀ a ∈ l, a.off + 8 ≤ size := by
  refine ⟨(List.range 13).map (fun i => ((2 ^ (12 + i) : Nat) : Int)), by decide, by decide, ?_⟩
  intro size hs
  obtain ⟨i, hi, rfl⟩ := List.mem_map.1 hs
  have hi := List.mem_range.1 hi
  have hle : 2 ^ (12 + i) ≤ 2 ^ 24 := Nat.pow_le_pow_right (by omega) (by omega)
  obtain ⟨l, h, hl, ho, _⟩ := C79_workload (k := 12 + i) (n := 100000000) (by omega) (by omega) buf (by omega) (by omega)
    (by omega)
  exact ⟨l, h, hl, fun a ha => by have := (ho a ha).2.1; exact_mod_cast this⟩

/-! ## The charts -/

/-- A chart whose shares add up to the total. -/
def Pie.Whole (p : Pie) : Prop := p.l1 + p.l2 + p.l3 + p.dram = p.total

/-- A chart without negative shares. -/
def Pie.Real (p : Pie) : Prop := 0 ≤ p.l1 ∧ 0 ≤ p.l2 ∧ 0 ≤ p.l3 ∧ 0 ≤ p.dram

/-- All counters are within these bounds. -/
def Counts.Within (c : Counts) (b : Int) : Prop :=
  (0 ≤ c.llMiss ∧ c.llMiss ≤ b) ∧ (0 ≤ c.l1 ∧ c.l1 ≤ b) ∧ (0 ≤ c.l1Refill ∧ c.l1Refill ≤ b) ∧ (0 ≤ c.l2 ∧ c.l2 ≤ b) ∧
    (0 ≤ c.l2Refill ∧ c.l2Refill ≤ b) ∧ (0 ≤ c.l3 ∧ c.l3 ≤ b) ∧ (0 ≤ c.l3Refill ∧ c.l3Refill ≤ b)

/-- A cache sees no more accesses than the one before it passes on, and passes on no more than it sees. -/
def Counts.Ordered (c : Counts) : Prop :=
  c.l1Refill ≤ c.l1 ∧ c.l2Refill ≤ c.l1Refill ∧ c.l3Refill ≤ c.l2Refill ∧ c.llMiss ≤ c.l2Refill ∧
    c.l2 ≤ c.l1 ∧ c.l3 ≤ c.l2 ∧ c.l3Refill ≤ c.l3

theorem intM_ok {x : Int} (h0 : -2147483648 ≤ x) (h1 : x ≤ 2147483647) : intM x = .ok x := by
  unfold intM
  rw [if_pos (by unfold InI32; omega)]

theorem check_ok {p : Pie} (h : p.Whole) (b1 : -2147483648 ≤ p.l1 + p.l2) (b2 : p.l1 + p.l2 ≤ 2147483647)
    (b3 : -2147483648 ≤ p.l1 + p.l2 + p.l3) (b4 : p.l1 + p.l2 + p.l3 ≤ 2147483647) (b5 : -2147483648 ≤ p.total)
    (b6 : p.total ≤ 2147483647) : check p = .ok () := by
  unfold Pie.Whole at h
  unfold check
  rw [intM_ok b1 b2, ok_bind, intM_ok b3 b4, ok_bind, h, intM_ok b5 b6, ok_bind, if_neg (by simp)]

/-- The five charts, if nothing overflows. -/
def chart5 (c : Counts) : Pie :=
  ⟨max 0 (c.l1 - c.l1Refill) + max 0 (c.l1Refill - c.l2Refill) + max 0 (c.l2Refill - max c.llMiss c.l3Refill) +
    max c.llMiss c.l3Refill, max 0 (c.l1 - c.l1Refill), max 0 (c.l1Refill - c.l2Refill),
    max 0 (c.l2Refill - max c.llMiss c.l3Refill), max c.llMiss c.l3Refill⟩

@[inherit_doc chart5] def chart4 (c : Counts) : Pie :=
  ⟨c.l1, c.l1 - c.l1Refill, c.l1Refill - c.l2Refill, c.l2Refill - c.l3Refill, c.l3Refill⟩

@[inherit_doc chart5] def chart3 (c : Counts) : Pie :=
  ⟨c.l1, c.l1 - min c.l2 c.l1, min c.l2 c.l1 - min c.l3 (min c.l2 c.l1), min c.l3 (min c.l2 c.l1) - c.l3Refill,
    c.l3Refill⟩

@[inherit_doc chart5] def chart2 (c : Counts) : Pie :=
  ⟨c.l1, c.l1 - c.l2, c.l2 - c.l3, c.l3 - c.l3Refill, c.l3Refill⟩

@[inherit_doc chart5] def chart1 (c : Counts) : Pie :=
  ⟨c.l1 + c.l1Refill, c.l1 - c.l2Refill - c.l3Refill, c.l1Refill, c.l2Refill, c.l3Refill⟩

theorem one_study {h : Counts → M Pie} {c : Counts} {p : Pie} (e : h c = .ok p) (k : check p = .ok ()) :
    (do let p ← h c; check p; .ok p : M Pie) = .ok p := by
  rw [e, ok_bind, k, ok_bind]

theorem study_eq {c : Counts} (h : c.Within 500000000) :
    study c = .ok [chart5 c, chart4 c, chart3 c, chart2 c, chart1 c] := by
  unfold Counts.Within at h
  have e5 : hypothesis5 c = .ok (chart5 c) := by
    unfold hypothesis5 intM chart5
    dsimp only
    rw [if_pos (by unfold InI32; omega), ok_bind,
      if_pos (by unfold InI32; omega), ok_bind,
      if_pos (by unfold InI32; omega), ok_bind,
      if_pos (by unfold InI32; omega), ok_bind,
      if_pos (by unfold InI32; omega), ok_bind,
      if_pos (by unfold InI32; omega), ok_bind]
  have k5 : check (chart5 c) = .ok () := by
    apply check_ok <;> simp only [Pie.Whole, chart5] <;> omega
  have e4 : hypothesis4 c = .ok (chart4 c) := by
    unfold hypothesis4 intM chart4
    rw [if_pos (by unfold InI32; omega), ok_bind,
      if_pos (by unfold InI32; omega), ok_bind,
      if_pos (by unfold InI32; omega), ok_bind]
  have k4 : check (chart4 c) = .ok () := by
    apply check_ok <;> simp only [Pie.Whole, chart4] <;> omega
  have e3 : hypothesis3 c = .ok (chart3 c) := by
    unfold hypothesis3 intM chart3
    dsimp only
    rw [if_pos (by unfold InI32; omega), ok_bind,
      if_pos (by unfold InI32; omega), ok_bind,
      if_pos (by unfold InI32; omega), ok_bind]
  have k3 : check (chart3 c) = .ok () := by
    apply check_ok <;> simp only [Pie.Whole, chart3] <;> omega
  have e2 : hypothesis2 c = .ok (chart2 c) := by
    unfold hypothesis2 intM chart2
    rw [if_pos (by unfold InI32; omega), ok_bind,
      if_pos (by unfold InI32; omega), ok_bind,
      if_pos (by unfold InI32; omega), ok_bind]
  have k2 : check (chart2 c) = .ok () := by
    apply check_ok <;> simp only [Pie.Whole, chart2] <;> omega
  have e1 : hypothesis1 c = .ok (chart1 c) := by
    unfold hypothesis1 intM chart1
    rw [if_pos (by unfold InI32; omega), ok_bind,
      if_pos (by unfold InI32; omega), ok_bind,
      if_pos (by unfold InI32; omega), ok_bind]
  have k1 : check (chart1 c) = .ok () := by
    apply check_ok <;> simp only [Pie.Whole, chart1] <;> omega
  unfold study hypotheses
  simp only [List.mapM_cons, List.mapM_nil, one_study e5 k5, one_study e4 k4, one_study e3 k3, one_study e2 k2,
    one_study e1 k1, ok_bind]
  rfl

/-- **C80** (part): with counters up to 500 million, `Study` never overflows nor aborts; all charts add up; the first
chart (Hypothesis5) has no negative share and a total of at least the accesses to the first cache; of the third only the
share of the third cache can be negative.  If the counters are
in order, the total is just that, and of all charts but the last (Hypothesis1) no share is negative. -/
theorem C80_charts_partial {c : Counts} (h : c.Within 500000000) :
    ∃ p5 p4 p3 p2 p1, study c = .ok [p5, p4, p3, p2, p1] ∧ (∀ p ∈ [p5, p4, p3, p2, p1], p.Whole) ∧
      p5.Real ∧ c.l1 ≤ p5.total ∧ (0 ≤ p3.l1 ∧ 0 ≤ p3.l2 ∧ 0 ≤ p3.dram) ∧ (c.Ordered → p5.total = c.l1 ∧ p4.Real ∧ p3.Real ∧ p2.Real) := by
  refine ⟨_, _, _, _, _, study_eq h, ?_, ?_, ?_, ?_, ?_⟩
  · intro p hp
    simp only [List.mem_cons, List.not_mem_nil, or_false] at hp
    rcases hp with rfl | rfl | rfl | rfl | rfl <;> simp only [Pie.Whole, chart5, chart4, chart3, chart2, chart1] <;> omega
  · unfold Counts.Within at h
    simp only [Pie.Real, chart5]
    omega
  · simp only [chart5]
    omega
  · unfold Counts.Within at h
    simp only [chart3]
    omega
  · unfold Counts.Within at h
    unfold Counts.Ordered
    simp only [Pie.Real, chart5, chart4, chart3, chart2]
    omega

/-- The hypotheses of `C80_charts_partial` can be met. -/
example : (⟨5, 100, 40, 38, 20, 18, 7⟩ : Counts).Within 500000000 ∧ (⟨5, 100, 40, 38, 20, 18, 7⟩ : Counts).Ordered := by
  unfold Counts.Within Counts.Ordered
  decide

/-- Where an access finds its data. -/
inductive Level
  | l1 | l2 | l3 | dram
  deriving DecidableEq, Repr

/-- Number of accesses that find their data at one of these levels. -/
def found (ls : List Level) (at_ : List Level) : Int := ls.countP (· ∈ at_)

/-- Counters that count each access at each cache that it gets to, and each refill that it causes. -/
def ideal (ls : List Level) : Counts :=
  { llMiss := found ls [.dram]
    l1 := ls.length
    l1Refill := found ls [.l2, .l3, .dram]
    l2 := found ls [.l2, .l3, .dram]
    l2Refill := found ls [.l3, .dram]
    l3 := found ls [.l3, .dram]
    l3Refill := found ls [.dram] }

/-- The chart that tells the truth. -/
def truth (ls : List Level) : Pie := ⟨ls.length, found ls [.l1], found ls [.l2], found ls [.l3], found ls [.dram]⟩

theorem found_sums (ls : List Level) : (ls.length : Int) = found ls [.l1] + found ls [.l2, .l3, .dram] ∧
    found ls [.l2, .l3, .dram] = found ls [.l2] + found ls [.l3, .dram] ∧
    found ls [.l3, .dram] = found ls [.l3] + found ls [.dram] ∧ 0 ≤ found ls [.l1] ∧ 0 ≤ found ls [.l2] ∧
    0 ≤ found ls [.l3] ∧ 0 ≤ found ls [.dram] := by
  induction ls with
  | nil => decide
  | cons a ls ih =>
    have hc : ∀ at_, found (a :: ls) at_ = found ls at_ + (if a ∈ at_ then 1 else 0) := by
      intro at_
      unfold found
      rw [List.countP_cons]
      by_cases h : a ∈ at_ <;> simp [h]
    simp only [hc, List.length_cons, Nat.cast_add]
    cases a <;> simp only [List.mem_cons, List.not_mem_nil, reduceCtorEq, or_false, or_true, if_true, if_false] <;>
      omega

/-- **C80** (part): with ideal counters, all hypotheses but the last give the true chart, for every run of up to 500 million
accesses. -/
theorem C80_ideal_partial (ls : List Level) (h : ls.length ≤ 500000000) :
    ∃ p1, study (ideal ls) = .ok [truth ls, truth ls, truth ls, truth ls, p1] := by
  have hs := found_sums ls
  refine ⟨chart1 (ideal ls), (study_eq (c := ideal ls) ?_).trans ?_⟩
  · simp only [Counts.Within, ideal]
    omega
  · have e5 : chart5 (ideal ls) = truth ls := by
      simp only [chart5, ideal, truth, Pie.mk.injEq]
      omega
    have e4 : chart4 (ideal ls) = truth ls := by
      simp only [chart4, ideal, truth, Pie.mk.injEq, and_true, true_and]
      omega
    have e3 : chart3 (ideal ls) = truth ls := by
      simp only [chart3, ideal, truth, Pie.mk.injEq, and_true, true_and]
      omega
    have e2 : chart2 (ideal ls) = truth ls := by
      simp only [chart2, ideal, truth, Pie.mk.injEq, and_true, true_and]
      omega
    rw [e5, e4, e3, e2]

/-- **C80 is refuted** for Hypothesis1 with ideal counters: it is true only if everything is found in the first cache. -/
theorem C80_refuted_ideal (ls : List Level) (h : ls.length ≤ 500000000) :
    hypothesis1 (ideal ls) = .ok (truth ls) ↔ ∀ a ∈ ls, a = .l1 := by
  have hs := found_sums ls
  have e1 : hypothesis1 (ideal ls) = .ok (chart1 (ideal ls)) := by
    unfold hypothesis1 intM chart1 ideal
    dsimp only
    rw [if_pos (by unfold InI32; omega), ok_bind, if_pos (by unfold InI32; omega), ok_bind,
      if_pos (by unfold InI32; omega), ok_bind]
  have hz : (∀ a ∈ ls, a = .l1) ↔ found ls [.l2, .l3, .dram] = 0 := by
    simp only [found, Int.natCast_eq_zero, List.countP_eq_zero]
    refine ⟨fun h a ha => by rw [h a ha]; decide, fun h a ha => ?_⟩
    have := h a ha
    cases a <;> simp_all
  rw [e1, hz, Except.ok.injEq]
  simp only [chart1, ideal, truth, Pie.mk.injEq, and_true]
  constructor
  · intro hh
    omega
  · intro hh
    refine ⟨?_, ?_, ?_, ?_⟩ <;> omega

/-- **C80 is refuted** for Hypothesis1: even with counters in order, a share is negative whenever more than half of the
accesses miss all caches. -/
theorem C80_refuted_hypothesis1 {c : Counts} (h : c.Within 500000000) (ho : c.Ordered) (hd : c.l1 < 2 * c.l3Refill) :
    ∃ p, hypothesis1 c = .ok p ∧ p.l1 < 0 := by
  unfold Counts.Within at h
  unfold Counts.Ordered at ho
  unfold hypothesis1 intM
  rw [if_pos (by unfold InI32; omega), ok_bind,
    if_pos (by unfold InI32; omega), ok_bind,
    if_pos (by unfold InI32; omega), ok_bind]
  exact ⟨_, rfl, by dsimp only; omega⟩

/-- **C80 is refuted** for Hypothesis3: its correction leaves out the last counter, so a share is negative whenever the last
cache is refilled more often than it is accessed. -/
theorem C80_refuted_hypothesis3 {c : Counts} (h : c.Within 500000000) (hd : c.l3 < c.l3Refill) :
    ∃ p, hypothesis3 c = .ok p ∧ p.l3 < 0 := by
  unfold Counts.Within at h
  unfold hypothesis3 intM
  dsimp only
  rw [if_pos (by unfold InI32; omega), ok_bind,
    if_pos (by unfold InI32; omega), ok_bind,
    if_pos (by unfold InI32; omega), ok_bind]
  exact ⟨_, rfl, by dsimp only; omega⟩

/-- Both refutations concern counters that exist. -/
example : (⟨0, 100, 90, 90, 80, 80, 70⟩ : Counts).Within 500000000 ∧ (⟨0, 100, 90, 90, 80, 80, 70⟩ : Counts).Ordered ∧
    (⟨0, 100, 90, 90, 80, 80, 70⟩ : Counts).l1 < 2 * (⟨0, 100, 90, 90, 80, 80, 70⟩ : Counts).l3Refill := by
  unfold Counts.Within Counts.Ordered
  decide

example : (⟨0, 100, 50, 40, 30, 20, 25⟩ : Counts).Within 500000000 := by
  unfold Counts.Within
  decide

/-- **C80 is refuted** for large counters: the sum in Hypothesis1 overflows. -/
theorem C80_refuted_overflow : study ⟨0, 1500000000, 1000000000, 0, 0, 0, 0⟩ = .error .overflow := by decide

end Gemmlowp.CacheCount
