import Verif.MetaArm32Check
/-!
# What the ends of the packing code and of the kernels for 32-bit ARM store
-/
namespace Gemmlowp.MetaAsm

open Vec (VReg)

theorem lin0_eval (x : X → Int) (r : X) : (XE.lin r 0 0).eval x = x r := by simp only [XE.eval]; omega

theorem sumL_eval (f : FloatOps) (mem : Int → BitVec 8) (s : St VReg Int) (i : Nat) :
    (sumL i).eval f mem s = sum8 (s.v (8 + i)) * BitVec.ofInt 32 (s.x .mulSum) + BitVec.ofInt 32 (s.x .addSum) := by
  simp only [sumL, LE.eval, lin0_eval]
  rfl

theorem reduces_of_ok32 {n : Nat} {l : List Ins} (hn : n ≤ 8) (h : redOk32 n l = true) (f : FloatOps)
    (mem : Int → BitVec 8) : Reduces f mem n l := by
  intro s
  unfold redOk32 at h
  simp only [Bool.and_eq_true, decide_eq_true_eq, List.all_eq_true, List.mem_range] at h
  obtain ⟨⟨hr, hw⟩, hl⟩ := h
  have e16 : 8 * (2 * groups n) = 16 * groups n := by omega
  refine ⟨?_, chunkWr (s.x .out) (fun i => (redE l i).eval f mem s) (2 * groups n), ?_, ?_, ?_⟩
  · rw [exec_sym]
    show (exec sym l symInit).rd.map _ ++ s.rd = s.rd
    rw [hr]; rfl
  · rw [exec_sym]
    show (exec sym l symInit).wr.map _ ++ s.wr = _
    rw [hw, eval_chunkWrS]
  · intro ok hok
    apply writesIn_chunk
    rw [e16]; exact hok
  · intro m
    constructor
    · intro a ha
      rw [memAfter_chunk, e16, if_neg ha]
    · intro i hi
      have hg : i / 4 < groups n := by unfold groups; split <;> omega
      have h1 := lane_eval f mem s (redE l (i / 2)) .s (i % 2)
      rw [hl i hi, sumL_eval] at h1
      rw [h1]
      symm
      apply word_of_bytes
      intro t ht
      rw [memAfter_chunk, e16, if_pos (by omega),
        show (s.x .out + 4 * (i : Int) + t - s.x .out).toNat = 4 * i + t by omega,
        show (4 * i + t) / 8 = i / 2 by omega, show (4 * i + t) % 8 = 4 * (i % 2) + t by omega]

theorem totalL_eval (f : FloatOps) (mem : Int → BitVec 8) (s : St VReg Int) (n i j : Nat) :
    (totalL n i j).eval f mem s = total mem s n i j := by
  have e : ∀ (r : X) (q : Nat), (XE.lin r 0 (4 * q : Nat)).eval s.x = s.x r + 4 * q := by
    intro r q; simp only [XE.eval]; omega
  simp only [totalL, LE.eval, e]
  rfl

theorem q8L_eval (f : FloatOps) (mem : Int → BitVec 8) (s : St VReg Int) (n i j : Nat) :
    (q8L n i j).eval f mem s =
      (quantize (s.x .mulOffset) (s.x .rounding) (s.x .shift) (total mem s n i j)).zeroExtend 32 := by
  simp only [q8L, LE.eval, totalL_eval, lin0_eval, setWidth_zx16]
  rfl

theorem f32L_eval (f : FloatOps) (mem : Int → BitVec 8) (s : St VReg Int) (n i j : Nat) :
    (f32L n i j).eval f mem s = f.mul (f.ofInt (total mem s n i j)) (BitVec.ofInt 32 (s.x .scale)) := by
  simp only [f32L, LE.eval, totalL_eval, lin0_eval]
  rfl

theorem zx_inj {x y : BitVec 8} (h : x.zeroExtend 32 = y.zeroExtend 32) : x = y := by
  have := congrArg BitVec.toNat h
  rw [zx_toNat, zx_toNat] at this
  exact BitVec.eq_of_toNat_eq this

theorem q8_tail32 {m n : Nat} {l : List Ins} (h : q8TailOk32 m n l = true) (f : FloatOps)
    (mem : Int → BitVec 8) (s : St VReg Int) (hw : s.wr = []) (x : Int × BitVec 8) :
    x ∈ bytesOf (exec (machine f mem) l s).wr ↔ ∃ i j, i < m ∧ j < n ∧
      x = (s.x .result + i * s.x .stride + j,
        quantize (s.x .mulOffset) (s.x .rounding) (s.x .shift) (total mem s n i j)) := by
  unfold q8TailOk32 at h
  rw [Bool.and_eq_true] at h
  have hmem := mem_of_sameMembers h.2
  simp only [bytesL, List.mem_map, mem_pairs] at hmem
  rw [exec_sym]
  show x ∈ bytesOf ((exec sym l symInit).wr.map (evalWr f mem s) ++ s.wr) ↔ _
  rw [hw, List.append_nil, bytesOf_eval, List.mem_map]
  constructor
  · rintro ⟨y, hy, rfl⟩
    obtain ⟨⟨i, j⟩, ⟨hi, hj⟩, e⟩ := (hmem (y.1, lane y.2.1 .b y.2.2)).1 ⟨y, hy, rfl⟩
    dsimp only at hi hj e
    obtain ⟨e1, e2⟩ := Prod.mk.inj e
    refine ⟨i, j, hi, hj, ?_⟩
    have h1 := lane_eval f mem s y.2.1 .b y.2.2
    rw [← e2, q8L_eval] at h1
    rw [← e1, zx_inj h1]
    rfl
  · rintro ⟨i, j, hi, hj, rfl⟩
    obtain ⟨y, hy, e⟩ := (hmem (.lin .result i j, q8L n i j)).2 ⟨(i, j), ⟨hi, hj⟩, rfl⟩
    obtain ⟨e1, e2⟩ := Prod.mk.inj e
    refine ⟨y, hy, ?_⟩
    have h1 := lane_eval f mem s y.2.1 .b y.2.2
    rw [e2, q8L_eval] at h1
    rw [e1, zx_inj h1]
    rfl

theorem word_tail32 {m n : Nat} {l : List Ins} {e : Nat → Nat → Nat → LE} (h : wordTailOk32 e m n l = true)
    (f : FloatOps) (mem : Int → BitVec 8) (s : St VReg Int) (hw : s.wr = []) {g : BitVec 32 → BitVec 32}
    (he : ∀ i j, (e n i j).eval f mem s = g (total mem s n i j)) :
    ∃ w, wordsOf (exec (machine f mem) l s).wr = some w ∧ ∀ x, x ∈ w ↔ ∃ i j, i < m ∧ j < n ∧
      x = (s.x .result + i * s.x .stride + (4 * j : Nat), g (total mem s n i j)) := by
  unfold wordTailOk32 at h
  rw [Bool.and_eq_true, Bool.and_eq_true] at h
  obtain ⟨⟨-, h4⟩, hs⟩ := h
  have hmem := mem_of_sameMembers hs
  simp only [wordsL, List.mem_map, mem_pairs] at hmem
  simp only [List.all_eq_true, decide_eq_true_eq] at h4
  rw [exec_sym]
  show ∃ w, wordsOf ((exec sym l symInit).wr.map (evalWr f mem s) ++ s.wr) = some w ∧ _
  rw [hw, List.append_nil]
  unfold wordsOf
  rw [if_pos]
  · refine ⟨_, rfl, ?_⟩
    intro x
    simp only [List.mem_map]
    constructor
    · rintro ⟨_, ⟨y, hy, rfl⟩, rfl⟩
      obtain ⟨⟨i, j⟩, ⟨hi, hj⟩, e'⟩ := (hmem (y.addr, lane y.v .s y.lane)).1 ⟨y, hy, rfl⟩
      dsimp only at hi hj e'
      obtain ⟨e1, e2⟩ := Prod.mk.inj e'
      refine ⟨i, j, hi, hj, ?_⟩
      have h1 := lane_eval f mem s y.v .s y.lane
      rw [← e2, he] at h1
      dsimp only [evalWr]
      rw [h1, ← e1]
      rfl
    · rintro ⟨i, j, hi, hj, rfl⟩
      obtain ⟨y, hy, e'⟩ := (hmem (.lin .result i (4 * j : Nat), e n i j)).2 ⟨(i, j), ⟨hi, hj⟩, rfl⟩
      obtain ⟨e1, e2⟩ := Prod.mk.inj e'
      refine ⟨_, ⟨y, hy, rfl⟩, ?_⟩
      have h1 := lane_eval f mem s y.v .s y.lane
      rw [e2, he] at h1
      dsimp only [evalWr]
      rw [h1, e1]
      rfl
  · simp only [List.all_eq_true, List.mem_map]
    rintro _ ⟨y, hy, rfl⟩
    have := h4 y hy
    dsimp only [evalWr]
    simpa using this

end Gemmlowp.MetaAsm
