import Verif.MetaRowProof
import Verif.MetaStreamsCol
import Mathlib.Tactic.Ring
/-!
# The ColumnMajorWithSum packing code packs columns

The code transposes in registers.  `VE.byte` follows a byte of a register back to where it was loaded.
-/
namespace Gemmlowp.MetaAsm

open Vec (VReg ofH ofS h_ofH s_ofS)

/-! ## Bytes by symbolic execution -/

/-- Which byte of which operand a permutation puts at byte `j`; `some none`: 0. -/
def Op2.perm : Op2 → Nat → Option (Option (Bool × Nat))
  | .trn1b, j => some (if 8 ≤ j then none else if j % 2 = 0 then some (false, j) else some (true, j - 1))
  | .trn2b, j => some (if 8 ≤ j then none else if j % 2 = 0 then some (false, j + 1) else some (true, j))
  | .trn1h, j => some (if 8 ≤ j then none else if j % 4 < 2 then some (false, j) else some (true, j - 2))
  | .trn2h, j => some (if 8 ≤ j then none else if j % 4 < 2 then some (false, j + 2) else some (true, j))
  | .trn1s, j => some (if 8 ≤ j then none else if j < 4 then some (false, j) else some (true, j - 4))
  | .trn2s, j => some (if 8 ≤ j then none else if j < 4 then some (false, j + 4) else some (true, j))
  | .uzp1b, j => some (if 8 ≤ j then none else if j < 4 then some (false, 2 * j) else some (true, 2 * j - 8))
  | .uzp2b, j => some (if 8 ≤ j then none else if j < 4 then some (false, 2 * j + 1) else some (true, 2 * j - 7))
  | _, _ => none

/-- Byte `j`: `some none` is 0, `some (some a)` the byte in memory at `a`. -/
def VE.byte : VE → Nat → Option (Option XE)
  | .zero, _ => some none
  | .load w a, j => some (if j < w then some (a.addImm j) else none)
  | .loadLane sz lane a v, j =>
    if sz * lane ≤ j ∧ j < sz * (lane + 1) then some (some (a.addImm (j - sz * lane : Nat))) else v.byte j
  | .op2 o a b, j =>
    match o.perm j with
    | some (some (false, i)) => a.byte i
    | some (some (true, i)) => b.byte i
    | some none => some none
    | none => none
  | _, _ => none

theorem Op2.perm_eval (f : FloatOps) (o : Op2) (a b : VReg) (j : Nat) : ∀ q, o.perm j = some q →
    op2V f o a b j = match q with
      | none => 0
      | some (false, i) => a i
      | some (true, i) => b i := by
  intro q h
  cases o <;> simp only [Op2.perm, Option.some.injEq, reduceCtorEq] at h <;> subst h <;> simp only [op2V] <;>
    (by_cases h8 : 8 ≤ j
     · rw [if_pos h8, if_pos h8]
     · rw [if_neg h8, if_neg h8]; split <;> rfl)

theorem VE.byte_eval (f : FloatOps) (mem : Int → BitVec 8) (s : St VReg Int) (e : VE) : ∀ (j : Nat) (q : Option XE),
    e.byte j = some q → e.eval f mem s j = match q with
      | none => 0
      | some a => mem (a.eval s.x) := by
  induction e with
  | zero => intro j q h; cases h; rfl
  | load w a =>
    intro j q h
    simp only [VE.byte, Option.some.injEq] at h
    subst h
    simp only [VE.eval, machine]
    by_cases hj : j < w
    · rw [if_pos hj, if_pos hj]; simp only [XE.eval_addImm]
    · rw [if_neg hj, if_neg hj]
  | loadLane sz lane a v ih =>
    intro j q h
    simp only [VE.byte] at h
    simp only [VE.eval, machine]
    by_cases hj : sz * lane ≤ j ∧ j < sz * (lane + 1)
    · rw [if_pos hj] at h ⊢
      cases h
      simp only [XE.eval_addImm]
    · rw [if_neg hj] at h ⊢
      exact ih j q h
  | op2 o a b iha ihb =>
    intro j q h
    simp only [VE.byte] at h
    show op2V f o (a.eval f mem s) (b.eval f mem s) j = _
    cases hp : o.perm j with
    | none => rw [hp] at h; exact absurd h (by simp)
    | some r =>
      rw [Op2.perm_eval f o _ _ j r hp]
      rw [hp] at h
      match r with
      | none => cases h; rfl
      | some (false, i) => exact iha i q h
      | some (true, i) => exact ihb i q h
  | _ => intro j q h; exact absurd h (by simp [VE.byte])

/-! ## Columns -/

/-- The part that is added to the sums of lane `i`. -/
def laneE (l : List Ins) (i : Nat) : VE :=
  match (exec sym l symInit).v (8 + i) with
  | .op2 .uaddw _ e => e
  | _ => .reg 0

/-- How much less than the distance of the columns the register `stride` holds. -/
def colAdj (n : Nat) : Nat := if 5 ≤ n ∧ n ≤ 7 then 4 else 0

/-- Byte `j` of what is added for lane `i` is from column `j`. -/
def colBytes (n len : Nat) (l : List Ins) : Bool :=
  (List.range n).all fun i => (List.range 8).all fun j =>
    decide ((laneE l i).byte j = some (if j < len then some (.lin .inp j (colAdj n * j + i : Nat)) else none))

/-- Reads are within the first `n` bytes of the next `len` columns. -/
def colReads (n len : Nat) (rd : List (XE × Nat)) : Bool :=
  rd.all fun r => match r.1 with
    | .lin p j o => decide (p = .inp ∧ j < len ∧ ((colAdj n * j : Nat) : Int) ≤ o ∧ o + r.2 ≤ (colAdj n * j + n : Nat))
    | _ => false

def colInitOk (n L : Nat) (l : List Ins) : Bool :=
  let s := exec sym l symInit
  ((List.range n).all fun i => decide (s.v (8 + i) = .zero)) &&
  decide (s.x .inp = .lin .inp 0 0) && decide (s.x .stride = .lin .stride 0 (-(colAdj n : Int))) &&
  decide (s.x .out = .lin .out 0 0) && decide (s.x .mulSum = .lin .mulSum 0 0) &&
  decide (s.x .addSum = .lin .addSum 0 0) && decide (s.x .count = .lin .count 0 (-(L : Int))) &&
  decide (0 < L → s.x .flags = .lin .count 0 (-(L : Int))) && decide (s.rd = []) && decide (s.wr = [])

def colBodyOk (n : Nat) (l : List Ins) : Bool :=
  let s := exec sym l symInit
  chunkOk n (laneE l) l && colBytes n 8 l && colReads n 8 s.rd &&
  decide (s.x .inp = .lin .inp 8 (8 * colAdj n : Nat)) && decide (s.x .stride = .lin .stride 0 0) &&
  decide (s.x .count = .lin .count 0 (-8)) && decide (s.x .flags = .lin .count 0 (-8))

def colOk (n L : Nat) (p : Prog) : Bool :=
  decide (p.skip = decide (0 < L)) && decide (p.cond = .ne) && colInitOk n L p.init &&
  colBodyOk n p.body &&
  (if L = 0 then decide (p.left = [])
   else chunkOk n (laneE p.left) p.left && colBytes n L p.left && colReads n L (exec sym p.left symInit).rd)

/-- All 64 pieces of code. -/
theorem cols_all : ((List.range 8).all fun n => (List.range 8).all fun L =>
    (colProg (n + 1) L).any fun p =>
      colOk (n + 1) L p && redOk (n + 1) p.red && alOk [] p) = true := by decide +kernel

theorem cols_ok {n L : Nat} (hn : 0 < n) (hn8 : n ≤ 8) (hL : L < 8) :
    ∃ p, colProg n L = some p ∧ colOk n L p = true ∧ redOk n p.red = true ∧ alOk [] p = true := by
  have h := cols_all
  simp only [List.all_eq_true, List.mem_range] at h
  have := h (n - 1) (by omega) L hL
  rw [show n - 1 + 1 = n by omega] at this
  cases hp : colProg n L with
  | none => rw [hp] at this; simp at this
  | some p =>
    rw [hp] at this
    simp only [Option.any_some, Bool.and_eq_true] at this
    exact ⟨p, rfl, this.1.1, this.1.2, this.2⟩

/-- The pointer is at column `pos`. -/
def colAt (n : Nat) (s0 : St VReg Int) (pos : Nat) (s : St VReg Int) : Prop :=
  s.x .inp = s0.x .inp + pos * s0.x .stride ∧ s.x .stride = s0.x .stride - colAdj n

theorem colAt.addr {n pos : Nat} {s0 s : St VReg Int} (h : colAt n s0 pos s) (j : Nat) (o : Int) :
    (XE.lin .inp j o).eval s.x =
      s0.x .inp + (pos + j : Nat) * s0.x .stride + (o - (colAdj n * j : Nat)) := by
  rw [eval_lin, h.1, h.2]
  push_cast
  ring

theorem colBytes_eval {n len pos : Nat} {l : List Ins} (h : colBytes n len l = true) (f : FloatOps)
    (mem : Int → BitVec 8) {s0 s : St VReg Int} (hs : colAt n s0 pos s) {i j : Nat} (hi : i < n) (hj : j < 8) :
    (laneE l i).eval f mem s j =
      if j < len then mem (s0.x .inp + i + (pos + j : Nat) * s0.x .stride) else 0 := by
  unfold colBytes at h
  simp only [List.all_eq_true, List.mem_range, decide_eq_true_eq] at h
  rw [VE.byte_eval f mem s _ j _ (h i hi j hj)]
  by_cases hl : j < len
  · rw [if_pos hl, if_pos hl]
    dsimp only
    rw [hs.addr]
    congr 1; push_cast; omega
  · rw [if_neg hl, if_neg hl]

theorem colReads_ok {n len pos : Nat} {l : List Ins} (h : colReads n len (exec sym l symInit).rd = true)
    {ok : Int → Bool} {s0 s : St VReg Int} (hs : colAt n s0 pos s)
    (hok : ∀ i : Nat, i < n → ∀ j, j < len → ok (s0.x .inp + i + (pos + j : Nat) * s0.x .stride) = true) :
    ∀ r, r ∈ (exec sym l symInit).rd → ∀ b : Nat, b < r.2 → ok (r.1.eval s.x + b) = true := by
  unfold colReads at h
  rw [List.all_eq_true] at h
  intro r hr b hb
  have := h r hr
  obtain ⟨a, w⟩ := r
  match a with
  | .lin p j o =>
    simp only [decide_eq_true_eq] at this
    obtain ⟨rfl, hj, h0, h1⟩ := this
    dsimp only at hb ⊢
    have := hok ((o - (colAdj n * j : Nat)).toNat + b) (by omega) j hj
    rw [hs.addr]
    rw [show s0.x .inp + ((pos + j : Nat) : Int) * s0.x .stride + (o - (colAdj n * j : Nat)) + b =
      s0.x .inp + ((o - (colAdj n * j : Nat)).toNat + b : Nat) + ((pos + j : Nat) : Int) * s0.x .stride by
        generalize ((pos + j : Nat) : Int) * s0.x .stride = Q
        generalize colAdj n * j = R at *
        omega]
    exact this
  | .sum a b => exact absurd this (by simp)

/-- The code for columns is packing code. -/
theorem col_code {n k : Nat} {p : Prog} (hp : colOk n (k % 8) p = true) (f : FloatOps) (mem : Int → BitVec 8)
    (hred : Reduces f mem n p.red)
    (ok : Int → Bool) (s0 : St VReg Int)
    (hok : ∀ i : Nat, i < n → ∀ q : Nat, q < k → ok (s0.x .inp + i + q * s0.x .stride) = true) :
    PackCode f mem p ok n k (fun i q => mem (s0.x .inp + i + q * s0.x .stride)) s0 (colAt n s0) := by
  unfold colOk colInitOk colBodyOk at hp
  simp only [Bool.and_eq_true, decide_eq_true_eq, List.all_eq_true, List.mem_range] at hp
  obtain ⟨⟨⟨⟨hskip, hcond⟩, ⟨⟨⟨⟨⟨⟨⟨⟨⟨hiv, hii⟩, his⟩, hio⟩, him⟩, hia⟩, hic⟩, hif⟩, hir⟩, hiw⟩⟩,
    ⟨⟨⟨⟨⟨⟨hbc, hbb⟩, hbr⟩, hbi⟩, hbs⟩, hbcnt⟩, hbf⟩⟩, hleft⟩ := hp
  have ex : ∀ (l : List Ins) (s : St VReg Int) r, (exec (machine f mem) l s).x r = ((exec sym l symInit).x r).eval s.x := by
    intro l s r; rw [exec_sym]; rfl
  refine ⟨hskip, hcond, hred, ?_, ?_, ?_, ?_, ?_, ?_, ?_, ?_, ?_, ?_⟩
  · intro h0; rw [if_pos h0, decide_eq_true_eq] at hleft; exact hleft
  · constructor
    · rw [ex, hii, eval_lin0]; simp
    · rw [ex, his, eval_lin0]; omega
  · intro i hi
    rw [exec_sym]
    show VE.eval f mem s0 ((exec sym p.init symInit).v (8 + i)) = _
    rw [hiv i hi]; rfl
  · rintro r (rfl | rfl | rfl)
    · rw [ex, hio, eval_lin0]; omega
    · rw [ex, him, eval_lin0]; omega
    · rw [ex, hia, eval_lin0]; omega
  · rw [ex, hic, eval_lin0]; omega
  · intro h0; rw [ex, hif h0, eval_lin0]; omega
  · rw [exec_sym]
    show (exec sym p.init symInit).rd.map _ ++ s0.rd = s0.rd
    rw [hir]; rfl
  · rw [exec_sym]
    show (exec sym p.init symInit).wr.map _ ++ s0.wr = s0.wr
    rw [hiw]; rfl
  · intro pos s hP hk
    refine ⟨chunk_of_ok hbc f mem ok _ s ?_ ?_, ⟨?_, ?_⟩, ?_, ?_⟩
    · intro i hi j hj
      exact colBytes_eval hbb f mem hP hi hj
    · exact colReads_ok hbr hP fun i hi j hj => hok i hi (pos + j) (by omega)
    · rw [ex, hbi, hP.addr, Nat.mul_comm 8]; push_cast; omega
    · rw [ex, hbs, eval_lin0, hP.2]; omega
    · rw [ex, hbcnt, eval_lin0]; omega
    · rw [ex, hbf, eval_lin0]; omega
  · intro pos s hP h0 hk
    rw [if_neg (by omega), Bool.and_eq_true, Bool.and_eq_true] at hleft
    refine chunk_of_ok hleft.1.1 f mem ok _ s ?_ ?_
    · intro i hi j hj
      exact colBytes_eval hleft.1.2 f mem hP hi hj
    · exact colReads_ok hleft.2 hP fun i hi j hj => hok i hi (pos + j) (by omega)

end Gemmlowp.MetaAsm
