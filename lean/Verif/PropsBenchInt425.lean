import Verif.BenchProgG
import Verif.PropsBench
/-!
# C76: the kernel for 4.25-bit operands does not do what the reference does

A pass through its inner loop uses two cells of depth but counts one, and there is one pass through its outer loop
(finding F50).
-/
namespace Gemmlowp.Bench

/-- `NEON_64bit_GEMM_Int425Operands::Run(lhs, rhs, accum, depth)`, as in `Kern.Run`. -/
def int425 (x : Nat → DReg) (lhs rhs : Buf UInt8) (accum : Buf (BitVec 32)) (depth : Nat) : M (Buf (BitVec 32)) :=
  if (int425Run ⟨lhs, rhs, accum.get⟩ depth ⟨x, 0, 0, true⟩).ok = true then
    .ok ⟨accum.size, fun k => if k < 8 then
      int425Word (int425Run ⟨lhs, rhs, accum.get⟩ depth ⟨x, 0, 0, true⟩) k else accum.get k⟩
  else .error .oob

/-- What a piece of code does with the pointers and reads, whatever is in the registers. -/
def extent (l : List Ins) : SSt := sym ⟨0, 255, 0, 255, fun _ => none⟩ l Kern.init

theorem exec_extent {m : Mem} (l : List Ins) {s : St} (hs : s.ok = true → s.lp ≤ m.lhs.size ∧ s.rp ≤ m.rhs.size) :
    (exec m l s).lp = s.lp + (extent l).lp ∧ (exec m l s).rp = s.rp + (extent l).rp ∧
    ((exec m l s).ok = true ↔ s.ok = true ∧ s.lp + (extent l).hl ≤ m.lhs.size ∧ s.rp + (extent l).hr ≤ m.rhs.size) := by
  let F : KernelFormat := arm8.F
  let E : Env := ⟨fun i => F.lhs.kval (m.lhs.get (s.lp + i)), fun i => F.rhs.kval (m.rhs.get (s.rp + i)), fun _ _ => 0,
    fun k => ((m.acc k).toNat : Int)⟩
  have hE : E.In ⟨0, 255, 0, 255, fun _ => none⟩ :=
    ⟨fun i => inRange_u8 (f := F.lhs) rfl m.lhs (s.lp + i + 1) (s.lp + i) (Nat.lt_succ_self _),
     fun i => inRange_u8 (f := F.rhs) rfl m.rhs (s.rp + i + 1) (s.rp + i) (Nat.lt_succ_self _),
     fun d i a h => by cases h⟩
  have hO : E.Of F m s.lp s.rp := ⟨fun _ => rfl, fun _ => rfl, fun _ => rfl⟩
  have hA0 : Agrees m E s.lp s.rp s.ok s Kern.init :=
    ⟨fun d sv h => (by cases h), rfl, rfl, ⟨fun h => ⟨h, hs h⟩, fun h => h.1⟩⟩
  have hA := sym_sound hE hO l hA0
  exact ⟨hA.lp, hA.rp, hA.ok⟩

theorem int425_extents : (let e := extent int425Pre; (e.lp, e.rp, e.hl, e.hr) = (128, 64, 128, 64)) ∧
    (let e := extent int425Clear; (e.lp, e.rp, e.hl, e.hr) = (0, 0, 0, 0)) ∧
    (let e := extent int425Pass; (e.lp, e.rp, e.hl, e.hr) = (256, 128, 256, 128)) ∧
    (let e := extent int425Last; (e.lp, e.rp, e.hl, e.hr) = (0, 0, 0, 0)) := by decide +kernel

theorem passes_arith {a : Prop} {u v p q k : Nat} :
    ((a ∧ u + 256 ≤ p ∧ v + 128 ≤ q) ∧ u + 256 + 256 * k ≤ p ∧ v + 128 + 128 * k ≤ q) ↔
      (a ∧ u + 256 * (k + 1) ≤ p ∧ v + 128 * (k + 1) ≤ q) := by
  have e1 : u + 256 * (k + 1) = u + 256 + 256 * k := by ring
  have e2 : v + 128 * (k + 1) = v + 128 + 128 * k := by ring
  rw [e1, e2]
  exact ⟨fun ⟨⟨h, _, _⟩, h1, h2⟩ => ⟨h, h1, h2⟩, fun ⟨h, h1, h2⟩ =>
    ⟨⟨h, Nat.le_trans (Nat.le_add_right _ _) h1, Nat.le_trans (Nat.le_add_right _ _) h2⟩, h1, h2⟩⟩

theorem int425Passes_reads {m : Mem} : ∀ (x t : Nat) {s : St}, 0 < x → 0 < t →
    (s.ok = true → s.lp ≤ m.lhs.size ∧ s.rp ≤ m.rhs.size) →
    (int425Passes m x (32 * t) s).lp = s.lp + 256 * min x t ∧ (int425Passes m x (32 * t) s).rp = s.rp + 128 * min x t ∧
    ((int425Passes m x (32 * t) s).ok = true ↔ s.ok = true ∧ s.lp + 256 * min x t ≤ m.lhs.size ∧
      s.rp + 128 * min x t ≤ m.rhs.size) := by
  intro x
  induction x with
  | zero => intro t s h; omega
  | succ x ih =>
    intro t s _ ht hs
    have he := int425_extents.2.2.1
    simp only [Prod.mk.injEq] at he
    obtain ⟨e1, e2, e3, e4⟩ := he
    obtain ⟨h1, h2, h3⟩ := exec_extent int425Pass hs
    rw [e1] at h1
    rw [e2] at h2
    rw [e3, e4] at h3
    clear e1 e2 e3 e4
    unfold int425Passes
    generalize exec m int425Pass s = s' at *
    by_cases hc : x = 0 ∨ 32 * t = 32
    · rw [if_pos hc]
      have : min (x + 1) t = 1 := by omega
      rw [this]
      exact ⟨h1, h2, h3⟩
    · rw [if_neg hc, show 32 * t - 32 = 32 * (t - 1) by omega]
      obtain ⟨i1, i2, i3⟩ := ih (t - 1) (s := s') (by omega) (by omega) (fun h => by
        have := h3.1 h
        omega)
      have : min (x + 1) t = min x (t - 1) + 1 := by omega
      rw [this]
      refine ⟨by omega, by omega, ?_⟩
      rw [i3, h3, h1, h2]
      exact passes_arith

/-- What the kernel reads: the first cells and two more in each of at most 16 passes. -/
theorem int425_reads {m : Mem} {t : Nat} (ht : 0 < t) (x : Nat → DReg) :
    (int425Run m (32 * t) ⟨x, 0, 0, true⟩).ok = true ↔ 128 + 256 * min 16 t ≤ m.lhs.size ∧
      64 + 128 * min 16 t ≤ m.rhs.size := by
  obtain ⟨p1, p2, _, p4⟩ := int425_extents
  simp only [Prod.mk.injEq] at p1 p2 p4
  obtain ⟨a1, a2, a3⟩ := exec_extent (m := m) int425Pre (s := ⟨x, 0, 0, true⟩) (fun _ => ⟨Nat.zero_le _, Nat.zero_le _⟩)
  obtain ⟨b1, b2, b3⟩ := exec_extent (m := m) int425Clear (s := exec m int425Pre ⟨x, 0, 0, true⟩) (fun h => by
    have := a3.1 h; dsimp only at *; omega)
  obtain ⟨c1, c2, c3⟩ := int425Passes_reads (m := m) 16 t (s := exec m int425Clear (exec m int425Pre ⟨x, 0, 0, true⟩))
    (by decide) ht (fun h => by have := b3.1 h; omega)
  obtain ⟨d1, d2, d3⟩ := exec_extent (m := m) int425Last
    (s := int425Passes m 16 (32 * t) (exec m int425Clear (exec m int425Pre ⟨x, 0, 0, true⟩))) (fun h => by
    have := c3.1 h; omega)
  dsimp only at a1 a2 a3
  unfold int425Run
  rw [d3, c3, b3, a3]
  constructor
  · rintro ⟨⟨_, _, _⟩, _, _⟩; omega
  · intro h; refine ⟨⟨⟨⟨rfl, ?_, ?_⟩, ?_, ?_⟩, ?_, ?_⟩, ?_, ?_⟩ <;> omega

/-- **Finding F50.**  At every depth up to 1024 the kernel for 4.25-bit operands reads outside the buffers of the
benchmark, whatever they contain. -/
theorem C76_refuted_int425 (x : Nat → DReg) {lhs rhs : Buf UInt8} {accum : Buf (BitVec 32)} {depth : Nat}
    (h0 : 0 < depth) (hd : 32 ∣ depth) (h1 : depth ≤ 1024) (hl : lhs.size = allocated (4 * depth)) :
    int425 x lhs rhs accum depth = .error .oob := by
  obtain ⟨t, rfl⟩ := hd
  unfold int425
  rw [if_neg]
  rw [int425_reads (by omega) x]
  unfold allocated at hl
  dsimp only
  omega

theorem Mem.Part.passes {m' m : Mem} (hP : m'.Part m) : ∀ (x depth : Nat) {s : St},
    (int425Passes m' x depth s).ok = true → int425Passes m x depth s = int425Passes m' x depth s ∧ s.ok = true
  | 0, _, _, h => ⟨rfl, h⟩
  | x + 1, depth, s, h => by
    unfold int425Passes at h ⊢
    by_cases hc : x = 0 ∨ depth = 32
    · rw [if_pos hc] at h ⊢
      rw [if_pos hc]
      exact ⟨hP.exec _ h, exec_ok h⟩
    · rw [if_neg hc] at h ⊢
      rw [if_neg hc]
      have h2 := (Mem.Part.passes hP x (depth - 32) h).2
      rw [hP.exec _ h2]
      exact ⟨(Mem.Part.passes hP x (depth - 32) h).1, exec_ok h2⟩

theorem Mem.Part.int425 {m' m : Mem} (hP : m'.Part m) {depth : Nat} {s : St} (h : (int425Run m' depth s).ok = true) :
    int425Run m depth s = int425Run m' depth s := by
  unfold int425Run at h ⊢
  have h1 := exec_ok h
  obtain ⟨e, h2⟩ := hP.passes _ _ h1
  rw [hP.exec _ (exec_ok h2), hP.exec _ h2, e, hP.exec _ h]

/-- An LHS that is 1 from cell `c` of depth on, and 0 before. -/
def late (n c : Nat) : Buf UInt8 := ⟨n, fun i => if 128 * c ≤ i then 1 else 0⟩

theorem late_coeff (n c d : Nat) {r : Nat} (hr : r < 4) :
    runCoeff int425F.lhs (late n c) 0 r d = if 32 * c ≤ d then 1 else 0 := by
  unfold runCoeff late
  show int425F.lhs.kval (if 128 * c ≤ 0 + (d / 32 * 1 + r / 4) * 128 + (d % 32 + r % 4 * 32) then 1 else 0) = _
  by_cases h : 32 * c ≤ d
  · rw [if_pos (by omega), if_pos h]; rfl
  · rw [if_neg (by omega), if_neg h]; rfl

/-- An RHS that is 1 everywhere. -/
def ones (n : Nat) : Buf UInt8 := ⟨n, fun _ => 1⟩

theorem ones_coeff (n c d : Nat) : runCoeff int425F.rhs (ones n) 0 c d = 1 := rfl

theorem late_sum (a : Nat) : ∀ n, sumTo n (fun d => (if a ≤ d then 1 else 0 : Int) * 1) = ((n - a : Nat) : Int)
  | 0 => by simp [sumTo]
  | n + 1 => by
    rw [sumTo_succ, late_sum a n]
    by_cases h : a ≤ n
    · rw [if_pos h]; omega
    · rw [if_neg h]; omega

theorem late_terms (n n' c r k : Nat) (hr : r < 4) (j : Nat) :
    sumTo j (fun d => runCoeff int425F.lhs (late n c) 0 r d * runCoeff int425F.rhs (ones n') 0 k d) =
      ((j - 32 * c : Nat) : Int) := by
  rw [← late_sum (32 * c) j]
  exact sumTo_congr (fun d _ => by rw [late_coeff n c d hr, ones_coeff])

/-- The reference, for operands of which only the last `t - c` cells of depth count. -/
theorem reference_late {t c : Nat} (hc : c ≤ t) (ht : t - c ≤ 1) :
    ∃ y, reference .trap int425F (late (allocated (4 * (32 * t))) c) (ones (allocated (2 * (32 * t))))
      ⟨8, fun _ => 0#32⟩ (32 * t) = .ok y ∧ y.get 0 = BitVec.ofInt 32 ((32 * t - 32 * c : Nat) : Int) := by
  obtain ⟨y, h1, h2⟩ := reference_ok (mode := .trap) (reg := 32) (k := int425F) (rd := 32 * t)
    (lhs := late (allocated (4 * (32 * t))) c) (rhs := ones (allocated (2 * (32 * t)))) (accum := ⟨8, fun _ => 0#32⟩)
    ⟨⟨by decide, by decide, by decide, by decide, by decide, by decide⟩,
      ⟨by decide, by decide, by decide, by decide, by decide, by decide⟩, rfl⟩ ⟨t, rfl⟩ (Nat.le_add_right _ _)
    (Nat.le_add_right _ _) rfl (b := fun _ _ => 0) (fun r c _ _ => rfl) (fun _ r k n hr _ hn => by
      rw [late_terms _ _ _ _ _ hr]; unfold InI32; omega)
  refine ⟨y, h1, ?_⟩
  have := h2.val 0 0 (by decide) (by decide)
  rw [late_terms _ _ _ _ _ (by decide), Int.zero_add] at this
  exact this

/-- **Finding F50.**  At every depth from 1088 on the kernel gets a product of matrices of zeros and ones wrong: it does
not read the last cell of depth. -/
theorem C76_refuted_int425_deep (x : Nat → DReg) {t : Nat} (ht : 34 ≤ t) :
    ∃ lhs rhs accum, lhs.size = allocated (4 * (32 * t)) ∧ rhs.size = allocated (2 * (32 * t)) ∧ accum.size = 8 ∧
      InRange int425F.lhs lhs lhs.size 0 1 ∧ InRange int425F.rhs rhs rhs.size 0 1 ∧
      (∃ y, reference .trap int425F lhs rhs accum (32 * t) = .ok y) ∧
      ¬ Agree 8 (int425 x lhs rhs accum (32 * t)) (reference .trap int425F lhs rhs accum (32 * t)) := by
  obtain ⟨y1, r1, v1⟩ := reference_late (t := t) (c := t) (by omega) (by omega)
  obtain ⟨y2, r2, v2⟩ := reference_late (t := t) (c := t - 1) (by omega) (by omega)
  have hrng : ∀ c, InRange int425F.lhs (late (allocated (4 * (32 * t))) c) (allocated (4 * (32 * t))) 0 1 := by
    intro c i _
    show 0 ≤ int425F.lhs.kval (if _ then 1 else 0) ∧ int425F.lhs.kval (if _ then 1 else 0) ≤ 1
    split <;> decide
  have hrr : InRange int425F.rhs (ones (allocated (2 * (32 * t)))) (allocated (2 * (32 * t))) 0 1 :=
    fun _ _ => (by decide : 0 ≤ int425F.rhs.kval 1 ∧ int425F.rhs.kval 1 ≤ 1)
  by_cases hA : Agree 8 (int425 x (late (allocated (4 * (32 * t))) t) (ones (allocated (2 * (32 * t))))
      ⟨8, fun _ => 0#32⟩ (32 * t))
      (reference .trap int425F (late (allocated (4 * (32 * t))) t) (ones (allocated (2 * (32 * t))))
      ⟨8, fun _ => 0#32⟩ (32 * t))
  · refine ⟨late (allocated (4 * (32 * t))) (t - 1), ones (allocated (2 * (32 * t))), ⟨8, fun _ => 0#32⟩, rfl, rfl, rfl,
      hrng _, hrr, ⟨y2, r2⟩, fun hB => ?_⟩
    -- the kernel does the same for both
    have same : int425Run ⟨late (allocated (4 * (32 * t))) (t - 1), ones (allocated (2 * (32 * t))), fun _ => 0#32⟩ (32 * t)
          ⟨x, 0, 0, true⟩ =
        int425Run ⟨late (allocated (4 * (32 * t))) t, ones (allocated (2 * (32 * t))), fun _ => 0#32⟩ (32 * t)
          ⟨x, 0, 0, true⟩ := by
      have hp : ∀ c, 33 ≤ c → Mem.Part ⟨late 4224 33, ones 2112, fun _ => 0#32⟩
          ⟨late (allocated (4 * (32 * t))) c, ones (allocated (2 * (32 * t))), fun _ => 0#32⟩ := by
        intro c hc
        refine ⟨rfl, by show 4224 ≤ 4 * (32 * t) + 16; omega, by show 2112 ≤ 2 * (32 * t) + 16; omega, fun i hi => ?_,
          fun _ _ => rfl⟩
        have hi' : i < 4224 := hi
        show (if 128 * 33 ≤ i then (1 : UInt8) else 0) = if 128 * c ≤ i then 1 else 0
        rw [if_neg (by omega), if_neg (by omega)]
      have hok : (int425Run ⟨late 4224 33, ones 2112, fun _ => 0#32⟩ (32 * t) ⟨x, 0, 0, true⟩).ok = true := by
        rw [int425_reads (by omega) x, show min 16 t = 16 by omega]
        exact ⟨by decide, by decide⟩
      rw [(hp _ (by omega)).int425 hok, (hp t (by omega)).int425 hok]
    obtain ⟨a, b, ha, hb, _, _, hab⟩ := hA
    obtain ⟨a', b', ha', hb', _, _, hab'⟩ := hB
    have e : int425 x (late (allocated (4 * (32 * t))) (t - 1)) (ones (allocated (2 * (32 * t)))) ⟨8, fun _ => 0#32⟩ (32 * t) =
        int425 x (late (allocated (4 * (32 * t))) t) (ones (allocated (2 * (32 * t)))) ⟨8, fun _ => 0#32⟩ (32 * t) := by
      unfold int425
      dsimp only
      rw [same]
    rw [e, ha] at ha'
    cases ha'
    rw [r1] at hb
    rw [r2] at hb'
    cases hb
    cases hb'
    have h3 := hab 0 (by decide)
    rw [hab' 0 (by decide), v1, v2, show 32 * t - 32 * (t - 1) = 32 by omega, show 32 * t - 32 * t = 0 by omega] at h3
    exact absurd h3 (by decide)
  · exact ⟨_, _, _, rfl, rfl, rfl, hrng t, hrr, ⟨y1, r1⟩, hA⟩

/-- Buffers as in `C76_refuted_int425`. -/
example : (late (allocated (4 * 512)) 3).size = allocated (4 * 512) ∧ 32 ∣ 512 := ⟨rfl, by decide⟩

end Gemmlowp.Bench
