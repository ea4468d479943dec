import Verif.Neon12
import Verif.Neon32Proof
/-!
# The kernel for products of at most 12 bits meets the kernel contract
-/
namespace Gemmlowp.Vec

open Asm (Tile Covers toNat_sub_ofNat)

/-! ## Moving accumulators between the destination's order and that of the kernel -/

theorem putD1_s (n o : VReg) (i : Nat) (hi : i < 4) :
    (putD 1 n o).s i = if i < 2 then o.s i else n.s (i - 2) := by
  split
  · next h =>
    have := half_s (putD 1 n o) 0 i h
    rw [half0_put1, half_s _ _ _ h, show 2 * 0 + i = i by omega] at this
    exact this.symm
  · next h =>
    have := half_s (putD 1 n o) 1 (i - 2) (by omega)
    rw [half1_put1, half_s _ _ _ (by omega), show 2 * 1 + (i - 2) = i by omega,
      show 2 * 0 + (i - 2) = i - 2 by omega] at this
    exact this.symm

theorem putD0_s (n o : VReg) (i : Nat) (hi : i < 4) :
    (putD 0 n o).s i = if i < 2 then n.s i else o.s i := by
  split
  · next h =>
    have := half_s (putD 0 n o) 0 i h
    rw [half0_put0, half_s _ _ _ h, show 2 * 0 + i = i by omega] at this
    exact this.symm
  · next h =>
    have := half_s (putD 0 n o) 1 (i - 2) (by omega)
    rw [half1_put0, half_s _ _ _ (by omega), show 2 * 1 + (i - 2) = i by omega] at this
    exact this.symm

/-- The results of `vtrn.32` -/
def trnA (a b : VReg) : VReg := ofS fun i => if i % 2 = 0 then a.s i else b.s (i - 1)
def trnB (a b : VReg) : VReg := ofS fun i => if i % 2 = 0 then a.s (i + 1) else b.s i

theorem twelveTranspose_x (m : Mem) (s : St) (q : Nat) (hq : q < 3) :
    (exec m twelveTranspose s).x (4 * q) =
      putD 1 (half (trnA (s.x (4 * q + 2)) (s.x (4 * q + 3))) 0) (trnA (s.x (4 * q)) (s.x (4 * q + 1))) ∧
    (exec m twelveTranspose s).x (4 * q + 1) =
      putD 1 (half (trnB (s.x (4 * q + 2)) (s.x (4 * q + 3))) 0) (trnB (s.x (4 * q)) (s.x (4 * q + 1))) ∧
    (exec m twelveTranspose s).x (4 * q + 2) =
      putD 0 (half (trnA (s.x (4 * q)) (s.x (4 * q + 1))) 1) (trnA (s.x (4 * q + 2)) (s.x (4 * q + 3))) ∧
    (exec m twelveTranspose s).x (4 * q + 3) =
      putD 0 (half (trnB (s.x (4 * q)) (s.x (4 * q + 1))) 1)
        (trnB (s.x (4 * q + 2)) (s.x (4 * q + 3))) := by
  interval_cases q <;> exact ⟨rfl, rfl, rfl, rfl⟩

/-- Each block of four registers is transposed. -/
theorem twelveTranspose_s (m : Mem) (s : St) (q c i : Nat) (hq : q < 3) (hc : c < 4) (hi : i < 4) :
    ((exec m twelveTranspose s).x (4 * q + c)).s i = (s.x (4 * q + i)).s c := by
  obtain ⟨h0, h1, h2, h3⟩ := twelveTranspose_x m s q hq
  have e : c = 0 ∨ c = 1 ∨ c = 2 ∨ c = 3 := by omega
  rcases e with rfl | rfl | rfl | rfl
  · rw [Nat.add_zero, h0, putD1_s _ _ _ hi]
    interval_cases i <;> simp [half_s, trnA]
  · rw [h1, putD1_s _ _ _ hi]
    interval_cases i <;> simp [half_s, trnB]
  · rw [h2, putD0_s _ _ _ hi]
    interval_cases i <;> simp [half_s, trnA]
  · rw [h3, putD0_s _ _ _ hi]
    interval_cases i <;> simp [half_s, trnB]

/-- The result of `vext.32` -/
def extV (v : VReg) (k : Nat) : VReg := ofS fun i => if i + k < 4 then v.s (i + k) else v.s (i + k - 4)

theorem extV_s (v : VReg) (k i : Nat) (hk : k < 4) (hi : i < 4) : (extV v k).s i = v.s ((i + k) % 4) := by
  unfold extV
  rw [s_ofS]
  split
  · rw [show (i + k) % 4 = i + k by omega]
  · rw [show (i + k) % 4 = i + k - 4 by omega]

theorem twelveRotateIn_s (m : Mem) (s : St) (q t i : Nat) (hq : q < 3) (ht : t < 4) (hi : i < 4) :
    ((exec m twelveRotateIn s).x (4 * q + t)).s i = (s.x (4 * q + t)).s ((i + t) % 4) := by
  by_cases h0 : t = 0
  · subst h0
    have : (exec m twelveRotateIn s).x (4 * q + 0) = s.x (4 * q + 0) := by interval_cases q <;> rfl
    rw [this, show (i + 0) % 4 = i by omega]
  · have : (exec m twelveRotateIn s).x (4 * q + t) = extV (s.x (4 * q + t)) t := by
      have : 1 ≤ t := by omega
      interval_cases q <;> interval_cases t <;> rfl
    rw [this, extV_s _ _ _ ht hi]

theorem twelveRotateOut_s (m : Mem) (s : St) (q t i : Nat) (hq : q < 3) (ht : t < 4) (hi : i < 4) :
    ((exec m twelveRotateOut s).x (4 * q + t)).s i = (s.x (4 * q + t)).s ((i + 4 - t) % 4) := by
  by_cases h0 : t = 0
  · subst h0
    have : (exec m twelveRotateOut s).x (4 * q + 0) = s.x (4 * q + 0) := by interval_cases q <;> rfl
    rw [this, show (i + 4 - 0) % 4 = i by omega]
  · have : (exec m twelveRotateOut s).x (4 * q + t) = extV (s.x (4 * q + t)) (4 - t) := by
      have : 1 ≤ t := by omega
      interval_cases q <;> interval_cases t <;> rfl
    rw [this, extV_s _ _ _ (by omega) hi, show i + (4 - t) = i + 4 - t by omega]

theorem twelveStoreIn_s (m : Mem) (s : St) (q k t : Nat) (hq : q < 3) (hk : k < 4) (ht : t < 4) :
    ((exec m twelveStoreIn s).x (16 + 4 * q + k)).s t = (s.x (4 * q + t)).s k := by
  have : (exec m twelveStoreIn s).x (16 + 4 * q + k) = ofS fun i =>
      if i = 0 then (half (s.x (4 * q)) (k / 2)).s (k % 2)
      else if i = 1 then (half (s.x (4 * q + 1)) (k / 2)).s (k % 2)
      else if i = 2 then (half (s.x (4 * q + 2)) (k / 2)).s (k % 2)
      else (half (s.x (4 * q + 3)) (k / 2)).s (k % 2) := by
    interval_cases q <;> interval_cases k <;> rfl
  rw [this, s_ofS]
  have e : ∀ v, (half v (k / 2)).s (k % 2) = v.s k := by
    intro v
    rw [half_s _ _ _ (by omega), show 2 * (k / 2) + k % 2 = k by omega]
  interval_cases t
  · rw [if_pos rfl, e]; rfl
  · rw [if_neg (by omega), if_pos rfl, e]
  · rw [if_neg (by omega), if_neg (by omega), if_pos rfl, e]
  · rw [if_neg (by omega), if_neg (by omega), if_neg (by omega), e]

theorem twelveLoadOut_s (m : Mem) (s : St) (q t i : Nat) (hq : q < 3) (ht : t < 4) (hi : i < 4) :
    ((exec m twelveLoadOut s).x (4 * q + t)).s i = (s.x (16 + 4 * q + i)).s t := by
  have : (exec m twelveLoadOut s).x (4 * q + t) =
      putD 1 (ofS fun i => if i = 0 then (s.x (16 + (4 * q + 2))).s t else (s.x (16 + (4 * q + 2 + 1))).s t)
        (putD 0 (ofS fun i => if i = 0 then (s.x (16 + 4 * q)).s t else (s.x (16 + (4 * q + 1))).s t)
          (s.x (4 * q + t))) := by
    interval_cases q <;> interval_cases t <;> rfl
  rw [this, putD_s _ _ _ _ hi, s_ofS, s_ofS]
  interval_cases i <;> rfl

/-- Where the kernel has the accumulator of an entry. -/
def obs12 (s : St) (r c : Nat) : BitVec 32 := (s.x (16 + 4 * (r / 4) + (c + 4 - r % 4) % 4)).s (r % 4)

theorem obs12_at (s : St) (q c i : Nat) (hi : i < 4) :
    obs12 s (4 * q + i) c = (s.x (16 + 4 * q + (c + 4 - i) % 4)).s i := by
  unfold obs12
  rw [show (4 * q + i) / 4 = q by omega, show (4 * q + i) % 4 = i by omega]

theorem twelveIn_obs (m : Mem) (s : St) (q c i : Nat) (hq : q < 3) (hc : c < 4) (hi : i < 4) :
    obs12 (exec m (twelveTranspose ++ twelveRotateIn ++ twelveStoreIn) s) (4 * q + i) c =
      (s.x (4 * q + c)).s i := by
  have hlt : (c + 4 - i) % 4 < 4 := Nat.mod_lt _ (by omega)
  rw [obs12_at _ _ _ _ hi, exec_append, exec_append, twelveStoreIn_s _ _ q _ i hq hlt hi,
    twelveRotateIn_s _ _ q i _ hq hi hlt, show ((c + 4 - i) % 4 + i) % 4 = c by omega,
    twelveTranspose_s _ _ q i c hq hi hc]

theorem twelveOut_obs (m : Mem) (s : St) (q c i : Nat) (hq : q < 3) (hc : c < 4) (hi : i < 4) :
    ((exec m (twelveLoadOut ++ twelveRotateOut ++ twelveTranspose) s).x (4 * q + c)).s i =
      obs12 s (4 * q + i) c := by
  have hlt : (c + 4 - i) % 4 < 4 := Nat.mod_lt _ (by omega)
  rw [obs12_at _ _ _ _ hi, exec_append, exec_append, twelveTranspose_s _ _ q c i hq hc hi,
    twelveRotateOut_s _ _ q i c hq hi hc, twelveLoadOut_s _ _ q i _ hq hi hlt]

/-! ## Two levels of depth -/

/-- `vext.8 d, d, d, #2` -/
def rot2 (v : VReg) : VReg := fun j => if j + 2 < 8 then v (j + 2) else v (j + 2 - 8)

/-- Register `q0` after `k` rotations of its lower half. -/
def rhs12 (q0 : VReg) : Nat → VReg
  | 0 => q0
  | k + 1 => putD 0 (rot2 (half (rhs12 q0 k) 0)) (rhs12 q0 k)

/-- `vmlal.u8` -/
def mlaV (acc a b : VReg) : VReg := ofH fun j => acc.h j + (a j).setWidth 16 * (b j).setWidth 16

theorem twelve2_x (m : Mem) (s : St) (k : Nat) (hk : k < 4) :
    (exec m twelve2 s).x (4 + k) = mlaV (s.x (4 + k))
      (half (rhs12 (putD 0 (bytes m.rhs (s.rp + 0)) (putD 1 (bytes m.lhs (s.lp + 0)) (s.x 0))) k) 1)
      (half (rhs12 (putD 0 (bytes m.rhs (s.rp + 0)) (putD 1 (bytes m.lhs (s.lp + 0)) (s.x 0))) k) 0) ∧
    (exec m twelve2 s).x (8 + k) = mlaV (s.x (8 + k))
      (half (putD 1 (bytes m.lhs (s.lp + 8 + 8 + 0)) (putD 0 (bytes m.lhs (s.lp + 8 + 0)) (s.x 1))) 0)
      (half (rhs12 (putD 0 (bytes m.rhs (s.rp + 0)) (putD 1 (bytes m.lhs (s.lp + 0)) (s.x 0))) k) 0) ∧
    (exec m twelve2 s).x (12 + k) = mlaV (s.x (12 + k))
      (half (putD 1 (bytes m.lhs (s.lp + 8 + 8 + 0)) (putD 0 (bytes m.lhs (s.lp + 8 + 0)) (s.x 1))) 1)
      (half (rhs12 (putD 0 (bytes m.rhs (s.rp + 0)) (putD 1 (bytes m.lhs (s.lp + 0)) (s.x 0))) k) 0) := by
  interval_cases k <;> exact ⟨rfl, rfl, rfl⟩

theorem twelve2_keep (m : Mem) (s : St) (g : Nat) (hg : g < 12) :
    (exec m twelve2 s).x (16 + g) = s.x (16 + g) := by
  interval_cases g <;> rfl

theorem rhs12_hi (v : VReg) (k : Nat) : half (rhs12 v k) 1 = half v 1 := by
  induction k with
  | zero => rfl
  | succ k ih => rw [rhs12, half1_put0, ih]

theorem rhs12_lo (v : VReg) (k j : Nat) (hj : j < 8) : half (rhs12 v k) 0 j = v ((j + 2 * k) % 8) := by
  induction k generalizing j with
  | zero => rw [rhs12, half_byte _ _ _ hj, show (j + 2 * 0) % 8 = 8 * 0 + j by omega]
  | succ k ih =>
    rw [rhs12, half0_put0, half_byte _ _ _ hj, show 8 * 0 + j = j by omega]
    unfold rot2
    split
    · rw [ih _ (by omega), show j + 2 + 2 * k = j + 2 * (k + 1) by omega]
    · rw [ih _ (by omega), show (j + 2 - 8 + 2 * k) % 8 = (j + 2 * (k + 1)) % 8 by omega]

/-- The product added to lane `j` of local accumulator `k` of cell `q`. -/
def prod12 (m : Mem) (lp rp q k j : Nat) : Nat :=
  (m.lhs.get (lp + 8 * q + j)).toNat * (m.rhs.get (rp + (j + 2 * k) % 8)).toNat

theorem mul_bytes_h (a b : UInt8) :
    a.toBitVec.setWidth 16 * b.toBitVec.setWidth 16 = BitVec.ofNat 16 (a.toNat * b.toNat) := by
  apply BitVec.eq_of_toNat_eq
  have ha := a.toNat_lt
  have hb := b.toNat_lt
  have hab : a.toNat * b.toNat ≤ 255 * 255 := Nat.mul_le_mul (by omega) (by omega)
  rw [BitVec.toNat_mul, BitVec.toNat_ofNat, BitVec.toNat_setWidth, BitVec.toNat_setWidth]
  show (a.toNat % 2 ^ 16) * (b.toNat % 2 ^ 16) % 2 ^ 16 = _
  rw [Nat.mod_eq_of_lt (by omega : a.toNat < 2 ^ 16), Nat.mod_eq_of_lt (by omega : b.toNat < 2 ^ 16)]

theorem twelve2_h (m : Mem) (s : St) (q k j : Nat) (hq : q < 3) (hk : k < 4) (hj : j < 8) :
    ((exec m twelve2 s).x (4 + 4 * q + k)).h j =
      (s.x (4 + 4 * q + k)).h j + BitVec.ofNat 16 (prod12 m s.lp s.rp q k j) := by
  obtain ⟨h0, h1, h2⟩ := twelve2_x m s k hk
  have hr : half (rhs12 (putD 0 (bytes m.rhs (s.rp + 0)) (putD 1 (bytes m.lhs (s.lp + 0)) (s.x 0))) k) 0 j
      = (m.rhs.get (s.rp + (j + 2 * k) % 8)).toBitVec := by
    rw [rhs12_lo _ _ _ hj]
    unfold putD
    rw [if_pos rfl, if_pos (Nat.mod_lt _ (by omega))]
    rfl
  have e : q = 0 ∨ q = 1 ∨ q = 2 := by omega
  unfold prod12
  rw [← mul_bytes_h]
  rcases e with rfl | rfl | rfl
  · rw [show 4 + 4 * 0 + k = 4 + k by omega, h0]
    unfold mlaV
    rw [h_ofH, hr, rhs12_hi, half1_put0, half1_put1, half_byte _ _ _ hj]
    unfold bytes
    rw [show s.lp + 0 + (8 * 0 + j) = s.lp + 8 * 0 + j by omega]
  · rw [show 4 + 4 * 1 + k = 8 + k by omega, h1]
    unfold mlaV
    rw [h_ofH, hr, half0_put1, half0_put0, half_byte _ _ _ hj]
    unfold bytes
    rw [show s.lp + 8 + 0 + (8 * 0 + j) = s.lp + 8 * 1 + j by omega]
  · rw [show 4 + 4 * 2 + k = 12 + k by omega, h2]
    unfold mlaV
    rw [h_ofH, hr, half1_put1, half_byte _ _ _ hj]
    unfold bytes
    rw [show s.lp + 8 + 8 + 0 + (8 * 0 + j) = s.lp + 8 * 2 + j by omega]

/-! ## Several times two levels -/

/-- Two levels `n` times. -/
def twelves : Nat → List Ins
  | 0 => []
  | n + 1 => twelves n ++ twelve2

theorem label32_eq : twelveLabel32 = twelves 16 := by
  simp only [twelveLabel32, twelveLabel24, twelveLabel16, twelveLabel8, twelveLabel2, twelve8, twelves,
    List.append_assoc, List.nil_append]

theorem label24_eq : twelveLabel24 = twelves 12 := by
  simp only [twelveLabel24, twelveLabel16, twelveLabel8, twelveLabel2, twelve8, twelves,
    List.append_assoc, List.nil_append]

theorem label16_eq : twelveLabel16 = twelves 8 := by
  simp only [twelveLabel16, twelveLabel8, twelveLabel2, twelve8, twelves,
    List.append_assoc, List.nil_append]

theorem label8_eq : twelveLabel8 = twelves 4 := by
  simp only [twelveLabel8, twelveLabel2, twelves, List.append_assoc, List.nil_append]

theorem label2_eq : twelveLabel2 = twelves 1 := by
  simp only [twelveLabel2, twelves, List.nil_append]

/-- The sum of the products of `n` times two levels. -/
def sum12 (m : Mem) (lp rp q k j : Nat) : Nat → Nat
  | 0 => 0
  | n + 1 => sum12 m lp rp q k j n + prod12 m (lp + 24 * n) (rp + 8 * n) q k j

structure Local (m : Mem) (s : St) (n : Nat) (s' : St) : Prop where
  lpos : s'.lp = s.lp + 24 * n
  rpos : s'.rp = s.rp + 8 * n
  ok : s'.ok = true
  keep : ∀ g, g < 12 → s'.x (16 + g) = s.x (16 + g)
  sums : ∀ q k j, q < 3 → k < 4 → j < 8 →
    (s'.x (4 + 4 * q + k)).h j = BitVec.ofNat 16 (sum12 m s.lp s.rp q k j n)

theorem zero_h (i : Nat) : VReg.h (fun _ => 0#8) i = 0#16 := by
  show (0#8 ++ 0#8 : BitVec 16) = 0#16
  decide

theorem twelves_local (m : Mem) (s : St) (hok : s.ok = true) (n : Nat)
    (hl : s.lp + 24 * n ≤ m.lhs.size) (hr : s.rp + 8 * n ≤ m.rhs.size) :
    Local m s n (exec m (twelves n) (exec m twelveLocal s)) := by
  induction n with
  | zero =>
    refine ⟨rfl, rfl, hok, ?_, ?_⟩
    · intro g hg; interval_cases g <;> rfl
    · intro q k j hq hk hj
      have : (exec m (twelves 0) (exec m twelveLocal s)).x (4 + 4 * q + k) = fun _ => 0#8 := by
        interval_cases q <;> interval_cases k <;> rfl
      rw [this, zero_h]
      rfl
  | succ n ih =>
    have h := ih (by omega) (by omega)
    rw [twelves, exec_append]
    generalize exec m (twelves n) (exec m twelveLocal s) = s' at h
    have e1 := h.lpos
    have e2 := h.rpos
    refine ⟨?_, ?_, ?_, ?_, ?_⟩
    · show s'.lp + 8 + 8 + 8 = _; omega
    · show s'.rp + 8 = _; omega
    · rw [exec_ok]
      refine ⟨h.ok, ?_⟩
      simp only [okOf, twelve2, vld1, vmlal_u8, vext_8, and_true]; omega
    · intro g hg
      rw [twelve2_keep m s' g hg, h.keep g hg]
    · intro q k j hq hk hj
      rw [twelve2_h m s' q k j hq hk hj, h.sums q k j hq hk hj, e1, e2, ← BitVec.ofNat_add]
      rfl

/-! ## One round of the loop -/

theorem twelveFlush_s (m : Mem) (s : St) (q k i : Nat) (hq : q < 3) (hk : k < 4) :
    ((exec m twelveFlush s).x (16 + 4 * q + k)).s i = (s.x (16 + 4 * q + k)).s i +
      (((s.x (4 + 4 * q + k)).h (2 * i)).setWidth 32 +
        ((s.x (4 + 4 * q + k)).h (2 * i + 1)).setWidth 32) := by
  have : (exec m twelveFlush s).x (16 + 4 * q + k) = ofS fun i => (s.x (16 + (4 * q + k))).s i +
      (((s.x (4 + 4 * q + k)).h (2 * i)).setWidth 32 +
        ((s.x (4 + 4 * q + k)).h (2 * i + 1)).setWidth 32) := by
    interval_cases q <;> interval_cases k <;> rfl
  rw [this, s_ofS, Nat.add_assoc 16]

/-- Products need at most 12 bits; the kernel counts in a C++ `int`. -/
def twelveNeeds : KernelNeeds := { pair := fun x y => x * y < 4096, pad := False, int := True }

theorem sum12_bound {m : Mem} {lp rp q k j n : Nat}
    (h : ∀ u, u < n → prod12 m (lp + 24 * u) (rp + 8 * u) q k j < 4096) :
    sum12 m lp rp q k j n ≤ 4095 * n := by
  induction n with
  | zero => exact Nat.le_refl 0
  | succ n ih =>
    have h1 := ih (fun u hu => h u (by omega))
    have h2 := h n (by omega)
    show sum12 m lp rp q k j n + _ ≤ _
    omega

theorem prod12_eq (m : Mem) (lp rp q c i e u : Nat) (hi : i < 4) (hc : c < 4) (he : e < 2) :
    ((prod12 m (lp + 24 * u) (rp + 8 * u) q ((c + 4 - i) % 4) (2 * i + e) : Nat) : Int) =
      runCoeff twelveFormat.lhs m.lhs lp (4 * q + i) (2 * u + e) *
        runCoeff twelveFormat.rhs m.rhs rp c (2 * u + e) := by
  have ha := runCoeff_at (f := twelveFormat.lhs) (b := m.lhs) (pos := lp) (q := q) (i := i) (u := u)
    (e := e) hi he
  have hb := runCoeff_at (f := twelveFormat.rhs) (b := m.rhs) (pos := rp) (q := 0) (i := c) (u := u)
    (e := e) hc he
  rw [Nat.mul_zero, Nat.zero_add] at hb
  refine Eq.trans ?_ (congrArg₂ (· * ·) ha hb).symm
  show _ = ((m.lhs.get (lp + (u * 3 + q) * 8 + (e + i * 2))).toNat : Int) *
    ((m.rhs.get (rp + (u * 1 + 0) * 8 + (e + c * 2))).toNat : Int)
  unfold prod12
  rw [Int.natCast_mul, show lp + 24 * u + 8 * q + (2 * i + e) = lp + (u * 3 + q) * 8 + (e + i * 2) by omega,
    show rp + 8 * u + (2 * i + e + 2 * ((c + 4 - i) % 4)) % 8 = rp + (u * 1 + 0) * 8 + (e + c * 2) by omega]

theorem sum12_eq (m : Mem) (lp rp q c i n : Nat) (hi : i < 4) (hc : c < 4) :
    ((sum12 m lp rp q ((c + 4 - i) % 4) (2 * i) n + sum12 m lp rp q ((c + 4 - i) % 4) (2 * i + 1) n : Nat) : Int) =
      sumTo (2 * n) (fun d => runCoeff twelveFormat.lhs m.lhs lp (4 * q + i) d *
        runCoeff twelveFormat.rhs m.rhs rp c d) := by
  induction n with
  | zero => rfl
  | succ n ih =>
    have h0 := prod12_eq m lp rp q c i 0 n hi hc (by omega)
    have h1 := prod12_eq m lp rp q c i 1 n hi hc (by omega)
    rw [show 2 * (n + 1) = 2 * n + 1 + 1 by omega, sumTo_succ, sumTo_succ, ← ih]
    show ((sum12 m lp rp q ((c + 4 - i) % 4) (2 * i) n + prod12 m (lp + 24 * n) (rp + 8 * n) q ((c + 4 - i) % 4) (2 * i + 0) +
      (sum12 m lp rp q ((c + 4 - i) % 4) (2 * i + 1) n +
        prod12 m (lp + 24 * n) (rp + 8 * n) q ((c + 4 - i) % 4) (2 * i + 1)) : Nat) : Int) = _
    rw [show (2 * n : Nat) = 2 * n + 0 from rfl, ← h0, ← h1]
    omega

/-- What a round with `n` times two levels does. -/
theorem twelveRound (m : Mem) (s : St) (hok : s.ok = true) (n : Nat) (hn : n ≤ 16)
    (hl : s.lp + 24 * n ≤ m.lhs.size) (hr : s.rp + 8 * n ≤ m.rhs.size) (s' : St)
    (hs' : s' = exec m twelveFlush (exec m (twelves n) (exec m twelveLocal s))) :
    s'.lp = s.lp + 24 * n ∧ s'.rp = s.rp + 8 * n ∧ s'.ok = true ∧
    ∀ q c i, q < 3 → c < 4 → i < 4 → (∀ d, d < 2 * n →
        twelveNeeds.pair (runCoeff twelveFormat.lhs m.lhs s.lp (4 * q + i) d)
          (runCoeff twelveFormat.rhs m.rhs s.rp c d)) →
      obs12 s' (4 * q + i) c = obs12 s (4 * q + i) c +
        BitVec.ofInt 32 (sumTo (2 * n) (fun d => runCoeff twelveFormat.lhs m.lhs s.lp (4 * q + i) d *
          runCoeff twelveFormat.rhs m.rhs s.rp c d)) := by
  subst hs'
  have h := twelves_local m s hok n hl hr
  generalize exec m (twelves n) (exec m twelveLocal s) = t at h
  refine ⟨h.lpos, h.rpos, ?_, ?_⟩
  · rw [exec_ok]; exact ⟨h.ok, trivial⟩
  · intro q c i hq hc hi hp
    have hk : (c + 4 - i) % 4 < 4 := Nat.mod_lt _ (by omega)
    have hb : ∀ e, e < 2 → sum12 m s.lp s.rp q ((c + 4 - i) % 4) (2 * i + e) n ≤ 4095 * n := by
      intro e he
      apply sum12_bound
      intro u hu
      have h1 := hp (2 * u + e) (by omega)
      have h2 := prod12_eq m s.lp s.rp q c i e u hi hc he
      have h1 : runCoeff twelveFormat.lhs m.lhs s.lp (4 * q + i) (2 * u + e) *
        runCoeff twelveFormat.rhs m.rhs s.rp c (2 * u + e) < 4096 := h1
      omega
    have b0 : sum12 m s.lp s.rp q ((c + 4 - i) % 4) (2 * i) n ≤ 4095 * n := hb 0 (by omega)
    have b1 := hb 1 (by omega)
    rw [obs12_at _ _ _ _ hi, obs12_at _ _ _ _ hi, twelveFlush_s m t q _ i hq hk,
      h.sums q _ _ hq hk (by omega), h.sums q _ _ hq hk (by omega), Nat.add_assoc 16,
      h.keep _ (by omega), ← sum12_eq m s.lp s.rp q c i n hi hc, BitVec.ofInt_natCast]
    congr 1
    apply BitVec.eq_of_toNat_eq
    rw [BitVec.toNat_add, BitVec.toNat_setWidth, BitVec.toNat_setWidth, BitVec.toNat_ofNat,
      BitVec.toNat_ofNat, BitVec.toNat_ofNat]
    omega

/-! ## The loop -/

/-- The loop goes one round and stops or goes on. -/
theorem twelveLoop_round (m : Mem) (depth : BitVec 32) (s : St) (M : Nat) (hM : 0 < M)
    (hd : depth.toNat = 2 * M) (hint : 2 * M ≤ 2147483647) :
    ∃ n, 0 < n ∧ n ≤ 16 ∧ n ≤ M ∧ twelveLoop m depth s =
      if n = M then exec m twelveFlush (exec m (twelves n) (exec m twelveLocal s))
      else twelveLoop m (depth - BitVec.ofNat 32 (2 * n))
        (exec m twelveFlush (exec m (twelves n) (exec m twelveLocal s))) := by
  have hti : depth.toInt = 2 * M := by
    rw [BitVec.toInt_eq_toNat_cond, if_pos (by omega), hd]; omega
  have hz : ∀ n, n ≤ M → (depth - BitVec.ofNat 32 (2 * n) = 0#32 ↔ n = M) := by
    intro n hn
    rw [← BitVec.toNat_inj, toNat_sub_ofNat (by omega), if_pos (by omega), BitVec.toNat_ofNat]
    omega
  have hround : ∀ n, n ≤ M → (if depth - BitVec.ofNat 32 (2 * n) = 0#32 then
        exec m twelveFlush (exec m (twelves n) (exec m twelveLocal s))
      else twelveLoop m (depth - BitVec.ofNat 32 (2 * n))
        (exec m twelveFlush (exec m (twelves n) (exec m twelveLocal s)))) =
      if n = M then exec m twelveFlush (exec m (twelves n) (exec m twelveLocal s))
      else twelveLoop m (depth - BitVec.ofNat 32 (2 * n))
        (exec m twelveFlush (exec m (twelves n) (exec m twelveLocal s))) := by
    intro n hn
    by_cases h : n = M
    · rw [if_pos ((hz n hn).2 h), if_pos h]
    · rw [if_neg (fun e => h ((hz n hn).1 e)), if_neg h]
  rw [twelveLoop]
  dsimp only
  rw [if_neg (by omega), label32_eq, label24_eq, label16_eq, label8_eq, label2_eq]
  split
  · exact ⟨16, by omega, by omega, by omega, hround 16 (by omega)⟩
  split
  · exact ⟨12, by omega, by omega, by omega, hround 12 (by omega)⟩
  split
  · exact ⟨8, by omega, by omega, by omega, hround 8 (by omega)⟩
  split
  · exact ⟨4, by omega, by omega, by omega, hround 4 (by omega)⟩
  · exact ⟨1, by omega, by omega, by omega, hround 1 (by omega)⟩

/-- What the loop does to the accumulator of entry (0, 0) for a depth of 32, whatever the operands. -/
theorem twelveLoop_32 (m : Mem) (s : St) (hok : s.ok = true) (hl : s.lp + 24 * 16 ≤ m.lhs.size)
    (hr : s.rp + 8 * 16 ≤ m.rhs.size) : obs12 (twelveLoop m 32#32 s) 0 0 = obs12 s 0 0 +
      ((BitVec.ofNat 16 (sum12 m s.lp s.rp 0 0 0 16)).setWidth 32 +
       (BitVec.ofNat 16 (sum12 m s.lp s.rp 0 0 1 16)).setWidth 32) := by
  have g := twelves_local m s hok 16 hl hr
  rw [twelveLoop]
  dsimp only
  rw [if_neg (by decide), dif_pos (by decide), if_pos (by decide), label32_eq]
  generalize exec m (twelves 16) (exec m twelveLocal s) = t at g
  have e := twelveFlush_s m t 0 0 0 (by omega) (by omega)
  rw [g.sums 0 0 (2 * 0) (by omega) (by omega) (by omega),
    g.sums 0 0 (2 * 0 + 1) (by omega) (by omega) (by omega)] at e
  have k := g.keep 0 (by omega)
  show ((exec m twelveFlush t).x 16).s 0 = (s.x 16).s 0 + _
  rw [← k]
  exact e

theorem twelveLoop_ok (m : Mem) : ∀ (M : Nat) (depth : BitVec 32) (s : St), 0 < M →
    depth.toNat = 2 * M → 2 * M ≤ 2147483647 → s.ok = true →
    s.lp + 24 * M ≤ m.lhs.size → s.rp + 8 * M ≤ m.rhs.size →
    (twelveLoop m depth s).ok = true ∧
    ∀ q c i, q < 3 → c < 4 → i < 4 → (∀ d, d < 2 * M →
        twelveNeeds.pair (runCoeff twelveFormat.lhs m.lhs s.lp (4 * q + i) d)
          (runCoeff twelveFormat.rhs m.rhs s.rp c d)) →
      obs12 (twelveLoop m depth s) (4 * q + i) c = obs12 s (4 * q + i) c +
        BitVec.ofInt 32 (sumTo (2 * M) (fun d => runCoeff twelveFormat.lhs m.lhs s.lp (4 * q + i) d *
          runCoeff twelveFormat.rhs m.rhs s.rp c d)) := by
  intro M
  induction M using Nat.strongRecOn with
  | ind M ih =>
    intro depth s hM hd hint hok hl hr
    obtain ⟨n, n0, n16, nM, hn⟩ := twelveLoop_round m depth s M hM hd hint
    have hround := twelveRound m s hok n n16 (by omega) (by omega) _ rfl
    rw [hn]
    generalize exec m twelveFlush (exec m (twelves n) (exec m twelveLocal s)) = s1 at hround
    obtain ⟨r1, r2, r3, r4⟩ := hround
    by_cases h : n = M
    · subst h
      rw [if_pos rfl]
      exact ⟨r3, r4⟩
    · rw [if_neg h]
      obtain ⟨k1, k2⟩ := ih (M - n) (by omega) (depth - BitVec.ofNat 32 (2 * n)) s1 (by omega)
        (by rw [toNat_sub_ofNat (by omega), if_pos (by omega)]; omega) (by omega) r3
        (by omega) (by omega)
      refine ⟨k1, ?_⟩
      intro q c i hq hc hi hp
      have hL : ∀ d, runCoeff twelveFormat.lhs m.lhs s1.lp (4 * q + i) d =
          runCoeff twelveFormat.lhs m.lhs s.lp (4 * q + i) (2 * n + d) := by
        intro d
        rw [r1]
        unfold runCoeff
        show twelveFormat.lhs.kval (m.lhs.get (s.lp + 24 * n + (d / 2 * 3 + (4 * q + i) / 4) * 8 +
          cellOff twelveFormat.lhs ((4 * q + i) % 4) (d % 2))) =
          twelveFormat.lhs.kval (m.lhs.get (s.lp + ((2 * n + d) / 2 * 3 + (4 * q + i) / 4) * 8 +
          cellOff twelveFormat.lhs ((4 * q + i) % 4) ((2 * n + d) % 2)))
        rw [show (2 * n + d) / 2 = n + d / 2 by omega, show (2 * n + d) % 2 = d % 2 by omega,
          show s.lp + 24 * n + (d / 2 * 3 + (4 * q + i) / 4) * 8 =
            s.lp + ((n + d / 2) * 3 + (4 * q + i) / 4) * 8 by omega]
      have hR : ∀ d, runCoeff twelveFormat.rhs m.rhs s1.rp c d =
          runCoeff twelveFormat.rhs m.rhs s.rp c (2 * n + d) := by
        intro d
        rw [r2]
        unfold runCoeff
        show twelveFormat.rhs.kval (m.rhs.get (s.rp + 8 * n + (d / 2 * 1 + c / 4) * 8 +
          cellOff twelveFormat.rhs (c % 4) (d % 2))) =
          twelveFormat.rhs.kval (m.rhs.get (s.rp + ((2 * n + d) / 2 * 1 + c / 4) * 8 +
          cellOff twelveFormat.rhs (c % 4) ((2 * n + d) % 2)))
        rw [show (2 * n + d) / 2 = n + d / 2 by omega, show (2 * n + d) % 2 = d % 2 by omega,
          show s.rp + 8 * n + (d / 2 * 1 + c / 4) * 8 = s.rp + ((n + d / 2) * 1 + c / 4) * 8 by omega]
      have h2 := k2 q c i hq hc hi (by
        intro d hd
        rw [hL, hR]
        exact hp _ (by omega))
      rw [h2, r4 q c i hq hc hi (fun d hd => hp d (by omega)), show 2 * M = 2 * n + 2 * (M - n) by omega,
        sumTo_split, BitVec.ofInt_add, BitVec.add_assoc]
      simp only [hL, hR]

theorem twelveKernel_ok (x0 : Nat → VReg) :
    KernelOk .wrap twelveFormat 16 twelveNeeds (twelveKernel x0) := by
  apply kernelConvFirst_ok (F := twelveFormat) (N := twelveNeeds) (obs := obs12)
    (regL := fun r c => r + c) (regS := fun r c => r + c) (by omega) (by decide) trivial
    (tilesIn_of (Q := 3) (C := 4) (tiles := twelveLoads) _ (by decide) (by decide) (by decide))
    (tilesIn_of (Q := 3) (C := 4) (tiles := twelveStores) _ (by decide) (by decide) (by decide))
    (fun m s => ⟨rfl, rfl, rfl⟩)
  · intro m s q c i hq hc hi
    have hq : 4 * q < 12 := hq
    have hq : q < 3 := by omega
    rw [obs12_at _ _ _ _ hi]
    have hk : (c + 4 - i) % 4 < 4 := Nat.mod_lt _ (by omega)
    generalize (c + 4 - i) % 4 = k at hk
    interval_cases q <;> interval_cases k <;> exact zero_s i
  · exact fun m s => ⟨rfl, rfl, rfl⟩
  · intro m s q c i hq hc hi
    have hq : 4 * q < 12 := hq
    exact twelveIn_obs m s q c i (by omega) hc hi
  · intro m N s hint hok hlb hrb
    have hint : 2 * (N + 1) ≤ 2147483647 := hint
    have hlb : s.lp + 12 * (2 * (N + 1)) ≤ m.lhs.size := hlb
    have hrb : s.rp + 4 * (2 * (N + 1)) ≤ m.rhs.size := hrb
    obtain ⟨h1, h2⟩ := twelveLoop_ok m (N + 1) (BitVec.ofNat 32 (2 * (N + 1))) s (by omega)
      (by rw [BitVec.toNat_ofNat]; omega) hint hok (by omega) (by omega)
    refine ⟨?_, ?_⟩
    · rw [exec_ok]; exact ⟨h1, trivial⟩
    · intro q c i hq hc hi hp
      have hq : 4 * q < 12 := hq
      exact (twelveOut_obs m _ q c i (by omega) hc hi).trans (h2 q c i (by omega) hc hi hp)

end Gemmlowp.Vec
