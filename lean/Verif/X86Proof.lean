import Verif.X86
import Mathlib.Tactic.IntervalCases
/-!
# The x86 kernels meet the kernel contract
-/
namespace Gemmlowp.Asm

/-! ## Registers -/

theorem lane_ofLanes (f : Nat → BitVec 32) (i : Nat) : (VReg.ofLanes f).lane i = f i := by
  unfold VReg.lane VReg.ofLanes
  rw [if_neg (by omega), if_pos (by omega), show (2 * i + 1) / 2 = i by omega,
    show 2 * i / 2 = i by omega]
  generalize f i = x
  apply BitVec.eq_of_getElem_eq
  intro j hj
  rw [BitVec.getElem_append]
  split
  · simp only [BitVec.getElem_extractLsb']
    rw [Nat.zero_add, BitVec.getLsbD_eq_getElem hj]
  · simp only [BitVec.getElem_extractLsb']
    rw [show 16 + (j - 16) = j by omega, BitVec.getLsbD_eq_getElem hj]

theorem toInt_byte (b : UInt8) : (BitVec.ofNat 16 b.toNat).toInt = (b.toNat : Int) := by
  have h := b.toNat_lt
  have h2 : (BitVec.ofNat 16 b.toNat).toNat = b.toNat := by
    rw [BitVec.toNat_ofNat]; exact Nat.mod_eq_of_lt (by omega)
  rw [BitVec.toInt_eq_toNat_of_lt (by rw [h2]; omega), h2]

/-- One step of an accumulator: register block `q` of the left-hand cells at `lp`, column `c` of the
right-hand cell at `rp`. -/
def tileStep (m : Mem) (L : Nat) (bc : Nat → VReg → VReg) (lp rp q c : Nat) (X : VReg) : VReg :=
  paddd (pmaddwd (ldzx m.lhs (lp + 2 * L * q) (2 * L)) (bc c (ldzx m.rhs rp (2 * L)))) X

/-- `bc c` puts the two values of column `c` in every 32-bit lane. -/
def Broadcasts (L : Nat) (bc : Nat → VReg → VReg) : Prop :=
  ∀ (b : Buf UInt8) (p c i : Nat), c < 4 → i < L →
    bc c (ldzx b p (2 * L)) (2 * i) = BitVec.ofNat 16 (b.get (p + 2 * c)).toNat ∧
    bc c (ldzx b p (2 * L)) (2 * i + 1) = BitVec.ofNat 16 (b.get (p + (2 * c + 1))).toNat

theorem tileStep_lane {m : Mem} {L : Nat} {bc : Nat → VReg → VReg} (hb : Broadcasts L bc)
    {lp rp q c i : Nat} (hc : c < 4) (hi : i < L) (X : VReg) :
    (tileStep m L bc lp rp q c X).lane i = X.lane i + BitVec.ofInt 32
      (((m.lhs.get (lp + 2 * L * q + 2 * i)).toNat : Int) * ((m.rhs.get (rp + 2 * c)).toNat : Int) +
       ((m.lhs.get (lp + 2 * L * q + (2 * i + 1))).toNat : Int) *
        ((m.rhs.get (rp + (2 * c + 1))).toNat : Int)) := by
  obtain ⟨h1, h2⟩ := hb m.rhs rp c i hc hi
  unfold tileStep paddd
  rw [lane_ofLanes, BitVec.add_comm]
  congr 1
  unfold pmaddwd
  rw [lane_ofLanes, h1, h2, toInt_byte, toInt_byte]
  unfold ldzx
  rw [if_pos (by omega), if_pos (by omega), toInt_byte, toInt_byte]

/-! ## Straight-line parts -/

/-- The reads of a straight-line part are of readable memory. -/
def okOf (m : Mem) : List X86 → Nat → Nat → Prop
  | [], _, _ => True
  | .movzx .lhs off n _ :: l, lp, rp => lp + off + n ≤ m.lhs.size + m.slack ∧ okOf m l lp rp
  | .movzx .rhs off n _ :: l, lp, rp => rp + off + n ≤ m.rhs.size + m.slack ∧ okOf m l lp rp
  | .addPtr .lhs n :: l, lp, rp => okOf m l (lp + n) rp
  | .addPtr .rhs n :: l, lp, rp => okOf m l lp (rp + n)
  | .zero _ :: l, lp, rp => okOf m l lp rp
  | .shuf _ _ _ :: l, lp, rp => okOf m l lp rp
  | .permq _ _ _ :: l, lp, rp => okOf m l lp rp
  | .madd _ _ _ :: l, lp, rp => okOf m l lp rp
  | .add _ _ _ :: l, lp, rp => okOf m l lp rp

theorem exec_ok (m : Mem) : ∀ (l : List X86) (s : St),
    (exec m l s).ok = true ↔ s.ok = true ∧ okOf m l s.lp s.rp := by
  intro l
  induction l with
  | nil => intro s; simp [exec, okOf]
  | cons i l ih =>
    intro s
    have e : exec m (i :: l) s = exec m l (step m i s) := rfl
    rw [e, ih]
    match i with
    | .movzx .lhs off n d => simp [step, okOf, St.setX, and_assoc]
    | .movzx .rhs off n d => simp [step, okOf, St.setX, and_assoc]
    | .addPtr .lhs n => rfl
    | .addPtr .rhs n => rfl
    | .zero _ => rfl
    | .shuf _ _ _ => rfl
    | .permq _ _ _ => rfl
    | .madd _ _ _ => rfl
    | .add _ _ _ => rfl

/-- What the three straight-line parts of a kernel do: clear the accumulators, and process one or
two cells. -/
structure Parts (L Q : Nat) (bc : Nat → VReg → VReg) (init body2 body1 : List X86) : Prop where
  bcast : Broadcasts L bc
  x0 : ∀ m s q c, q < Q → c < 4 → (exec m init s).x (4 + 4 * q + c) = fun _ => 0#16
  p0 : ∀ m s, (exec m init s).lp = s.lp ∧ (exec m init s).rp = s.rp
  ok0 : ∀ m lp rp, okOf m init lp rp
  x1 : ∀ m s q c, q < Q → c < 4 → (exec m body1 s).x (4 + 4 * q + c) =
    tileStep m L bc s.lp s.rp q c (s.x (4 + 4 * q + c))
  p1 : ∀ m s, (exec m body1 s).lp = s.lp + 2 * L * Q ∧ (exec m body1 s).rp = s.rp + 8
  ok1 : ∀ m lp rp, lp + 2 * L * Q ≤ m.lhs.size + m.slack → rp + 2 * L ≤ m.rhs.size + m.slack →
    okOf m body1 lp rp
  x2 : ∀ m s q c, q < Q → c < 4 → (exec m body2 s).x (4 + 4 * q + c) =
    tileStep m L bc (s.lp + 2 * L * Q) (s.rp + 8) q c
      (tileStep m L bc s.lp s.rp q c (s.x (4 + 4 * q + c)))
  p2 : ∀ m s, (exec m body2 s).lp = s.lp + 2 * L * Q + 2 * L * Q ∧
    (exec m body2 s).rp = s.rp + 8 + 8
  ok2 : ∀ m lp rp, lp + 2 * L * Q + 2 * L * Q ≤ m.lhs.size + m.slack →
    rp + 8 + 2 * L ≤ m.rhs.size + m.slack → okOf m body2 lp rp

theorem broadcasts_sse : Broadcasts 4 (fun c => pshufd (85 * c)) := by
  intro b p c i hc hi
  interval_cases c <;> interval_cases i <;> exact ⟨rfl, rfl⟩

theorem broadcasts_avx : Broadcasts 8 (fun c v => pshufd (85 * c) (vpermq 68 v)) := by
  intro b p c i hc hi
  interval_cases c <;> interval_cases i <;> exact ⟨rfl, rfl⟩


theorem sse32_x2_0 (m : Mem) (s : St) (c : Nat) (hc : c < 4) :
    (exec m sse32Loop2 s).x (4 + 4 * 0 + c) =
      tileStep m 4 (fun c => pshufd (85 * c)) (s.lp + 2 * 4 * 1) (s.rp + 8) 0 c
        (tileStep m 4 (fun c => pshufd (85 * c)) s.lp s.rp 0 c (s.x (4 + 4 * 0 + c))) := by
  interval_cases c <;> rfl

theorem sse32_x1 (m : Mem) (s : St) (q c : Nat) (hq : q < 1) (hc : c < 4) :
    (exec m sse32Loop1 s).x (4 + 4 * q + c) =
      tileStep m 4 (fun c => pshufd (85 * c)) s.lp s.rp q c (s.x (4 + 4 * q + c)) := by
  interval_cases q <;> interval_cases c <;> rfl

theorem sse32_parts : Parts 4 1 (fun c => pshufd (85 * c))
    sse32Init sse32Loop2 sse32Loop1 where
  bcast := broadcasts_sse
  x0 := by intro m s q c hq hc; interval_cases q <;> interval_cases c <;> rfl
  p0 := fun m s => ⟨rfl, rfl⟩
  ok0 := fun m lp rp => trivial
  x1 := sse32_x1
  p1 := fun m s => ⟨rfl, rfl⟩
  ok1 := by intro m lp rp h1 h2; simp only [okOf, sse32Loop1, and_true]; omega
  x2 := by
    intro m s q c hq hc
    match q with
    | 0 => exact sse32_x2_0 m s c hc
  p2 := fun m s => ⟨rfl, rfl⟩
  ok2 := by intro m lp rp h1 h2; simp only [okOf, sse32Loop2, and_true]; omega

theorem sse64_x2_0 (m : Mem) (s : St) (c : Nat) (hc : c < 4) :
    (exec m sse64Loop2 s).x (4 + 4 * 0 + c) =
      tileStep m 4 (fun c => pshufd (85 * c)) (s.lp + 2 * 4 * 3) (s.rp + 8) 0 c
        (tileStep m 4 (fun c => pshufd (85 * c)) s.lp s.rp 0 c (s.x (4 + 4 * 0 + c))) := by
  interval_cases c <;> rfl

theorem sse64_x2_1 (m : Mem) (s : St) (c : Nat) (hc : c < 4) :
    (exec m sse64Loop2 s).x (4 + 4 * 1 + c) =
      tileStep m 4 (fun c => pshufd (85 * c)) (s.lp + 2 * 4 * 3) (s.rp + 8) 1 c
        (tileStep m 4 (fun c => pshufd (85 * c)) s.lp s.rp 1 c (s.x (4 + 4 * 1 + c))) := by
  interval_cases c <;> rfl

theorem sse64_x2_2 (m : Mem) (s : St) (c : Nat) (hc : c < 4) :
    (exec m sse64Loop2 s).x (4 + 4 * 2 + c) =
      tileStep m 4 (fun c => pshufd (85 * c)) (s.lp + 2 * 4 * 3) (s.rp + 8) 2 c
        (tileStep m 4 (fun c => pshufd (85 * c)) s.lp s.rp 2 c (s.x (4 + 4 * 2 + c))) := by
  interval_cases c <;> rfl

theorem sse64_x1 (m : Mem) (s : St) (q c : Nat) (hq : q < 3) (hc : c < 4) :
    (exec m sse64Loop1 s).x (4 + 4 * q + c) =
      tileStep m 4 (fun c => pshufd (85 * c)) s.lp s.rp q c (s.x (4 + 4 * q + c)) := by
  interval_cases q <;> interval_cases c <;> rfl

theorem sse64_parts : Parts 4 3 (fun c => pshufd (85 * c))
    sse64Init sse64Loop2 sse64Loop1 where
  bcast := broadcasts_sse
  x0 := by intro m s q c hq hc; interval_cases q <;> interval_cases c <;> rfl
  p0 := fun m s => ⟨rfl, rfl⟩
  ok0 := fun m lp rp => trivial
  x1 := sse64_x1
  p1 := fun m s => ⟨rfl, rfl⟩
  ok1 := by intro m lp rp h1 h2; simp only [okOf, sse64Loop1, and_true]; omega
  x2 := by
    intro m s q c hq hc
    match q with
    | 0 => exact sse64_x2_0 m s c hc
    | 1 => exact sse64_x2_1 m s c hc
    | 2 => exact sse64_x2_2 m s c hc
  p2 := fun m s => ⟨rfl, rfl⟩
  ok2 := by intro m lp rp h1 h2; simp only [okOf, sse64Loop2, and_true]; omega

set_option maxRecDepth 2000 in
theorem avx2_x2_0 (m : Mem) (s : St) (c : Nat) (hc : c < 4) :
    (exec m avx2Loop2 s).x (4 + 4 * 0 + c) =
      tileStep m 8 (fun c v => pshufd (85 * c) (vpermq 68 v)) (s.lp + 2 * 8 * 3) (s.rp + 8) 0 c
        (tileStep m 8 (fun c v => pshufd (85 * c) (vpermq 68 v)) s.lp s.rp 0 c (s.x (4 + 4 * 0 + c))) := by
  interval_cases c <;> rfl

set_option maxRecDepth 2000 in
theorem avx2_x2_1 (m : Mem) (s : St) (c : Nat) (hc : c < 4) :
    (exec m avx2Loop2 s).x (4 + 4 * 1 + c) =
      tileStep m 8 (fun c v => pshufd (85 * c) (vpermq 68 v)) (s.lp + 2 * 8 * 3) (s.rp + 8) 1 c
        (tileStep m 8 (fun c v => pshufd (85 * c) (vpermq 68 v)) s.lp s.rp 1 c (s.x (4 + 4 * 1 + c))) := by
  interval_cases c <;> rfl

set_option maxRecDepth 2000 in
theorem avx2_x2_2 (m : Mem) (s : St) (c : Nat) (hc : c < 4) :
    (exec m avx2Loop2 s).x (4 + 4 * 2 + c) =
      tileStep m 8 (fun c v => pshufd (85 * c) (vpermq 68 v)) (s.lp + 2 * 8 * 3) (s.rp + 8) 2 c
        (tileStep m 8 (fun c v => pshufd (85 * c) (vpermq 68 v)) s.lp s.rp 2 c (s.x (4 + 4 * 2 + c))) := by
  interval_cases c <;> rfl

set_option maxHeartbeats 600000 in
theorem avx2_x1 (m : Mem) (s : St) (q c : Nat) (hq : q < 3) (hc : c < 4) :
    (exec m avx2Loop1 s).x (4 + 4 * q + c) =
      tileStep m 8 (fun c v => pshufd (85 * c) (vpermq 68 v)) s.lp s.rp q c (s.x (4 + 4 * q + c)) := by
  interval_cases q <;> interval_cases c <;> rfl

theorem avx2_parts : Parts 8 3 (fun c v => pshufd (85 * c) (vpermq 68 v))
    avx2Init avx2Loop2 avx2Loop1 where
  bcast := broadcasts_avx
  x0 := by intro m s q c hq hc; interval_cases q <;> interval_cases c <;> rfl
  p0 := fun m s => ⟨rfl, rfl⟩
  ok0 := fun m lp rp => trivial
  x1 := avx2_x1
  p1 := fun m s => ⟨rfl, rfl⟩
  ok1 := by intro m lp rp h1 h2; simp only [okOf, avx2Loop1, and_true]; omega
  x2 := by
    intro m s q c hq hc
    match q with
    | 0 => exact avx2_x2_0 m s c hc
    | 1 => exact avx2_x2_1 m s c hc
    | 2 => exact avx2_x2_2 m s c hc
  p2 := fun m s => ⟨rfl, rfl⟩
  ok2 := by intro m lp rp h1 h2; simp only [okOf, avx2Loop2, and_true]; omega

end Gemmlowp.Asm
