import Verif.MetaPackProof
import Verif.MetaAlign
import Verif.MetaStreamsRow
/-!
# The RowMajorWithSum packing code packs rows
-/
namespace Gemmlowp.MetaAsm

open Vec (VReg ofH ofS h_ofH s_ofS)

/-! ## Chunks by symbolic execution -/

def chunkWrS (e : Nat → VE) : Nat → List (Write VE XE)
  | 0 => []
  | n + 1 => ⟨.lin .out 0 (8 * n + 4 : Nat), 4, 1, e n⟩ :: ⟨.lin .out 0 (8 * n : Nat), 4, 0, e n⟩ :: chunkWrS e n

theorem eval_chunkWrS (f : FloatOps) (mem : Int → BitVec 8) (s : St VReg Int) (e : Nat → VE) : ∀ n,
    (chunkWrS e n).map (evalWr f mem s) = chunkWr (s.x .out) (fun i => (e i).eval f mem s) n
  | 0 => rfl
  | n + 1 => by
    have e0 : ∀ m : Nat, (XE.lin .out 0 m).eval s.x = s.x .out + m := by
      intro m; simp only [XE.eval]; omega
    simp only [chunkWrS, chunkWr, List.map_cons, evalWr, e0, eval_chunkWrS f mem s e n]

/-- The code adds `e i` to the sums of lane `i` and stores it. -/
def chunkOk (n : Nat) (e : Nat → VE) (l : List Ins) : Bool :=
  let s := exec sym l symInit
  ((List.range n).all fun i => decide (s.v (8 + i) = .op2 .uaddw (.reg (8 + i)) (e i))) &&
  decide (s.wr = chunkWrS e n) && decide (s.x .out = .lin .out 0 (8 * n : Nat)) &&
  decide (s.x .mulSum = .lin .mulSum 0 0) && decide (s.x .addSum = .lin .addSum 0 0)

theorem eval_lin (x : X → Int) (r : X) (k : Nat) (n : Int) : (XE.lin r k n).eval x = x r + k * x .stride + n := rfl

theorem eval_lin0 (x : X → Int) (r : X) (n : Int) : (XE.lin r 0 n).eval x = x r + n := by
  simp only [XE.eval]; omega

theorem chunk_of_ok {n len : Nat} {e : Nat → VE} {l : List Ins} (h : chunkOk n e l = true) (f : FloatOps)
    (mem : Int → BitVec 8) (ok : Int → Bool) (src : Nat → Nat → BitVec 8) (s : St VReg Int)
    (he : ∀ i, i < n → ∀ j, j < 8 → (e i).eval f mem s j = if j < len then src i j else 0)
    (hr : ∀ r, r ∈ (exec sym l symInit).rd → ∀ b : Nat, b < r.2 → ok (r.1.eval s.x + b) = true) :
    Chunk ok n len src s (exec (machine f mem) l s) := by
  unfold chunkOk at h
  simp only [Bool.and_eq_true, decide_eq_true_eq, List.all_eq_true, List.mem_range] at h
  obtain ⟨⟨⟨⟨h1, h2⟩, h3⟩, h4⟩, h5⟩ := h
  rw [exec_sym]
  refine ⟨⟨fun i => (e i).eval f mem s, he, ?_, ?_⟩, ?_, ?_, ?_, ?_⟩
  · intro i hi j hj
    show VReg.h (VE.eval f mem s ((exec sym l symInit).v (8 + i))) j = _
    rw [h1 i hi]
    simp only [VE.eval, machine, op2V, h_ofH]
  · show (exec sym l symInit).wr.map _ ++ s.wr = _
    rw [h2, eval_chunkWrS]
  · show XE.eval s.x ((exec sym l symInit).x .out) = _
    rw [h3, eval_lin0]
  · intro h0
    show readsIn ok ((exec sym l symInit).rd.map _ ++ s.rd) = true
    rw [readsIn_append, Bool.and_eq_true]
    refine ⟨?_, h0⟩
    unfold readsIn
    simp only [List.all_eq_true, List.mem_map, List.mem_range]
    rintro _ ⟨r, hr', rfl⟩ b hb
    exact hr r hr' b hb
  · show XE.eval s.x ((exec sym l symInit).x .mulSum) = _
    rw [h4, eval_lin0]; omega
  · show XE.eval s.x ((exec sym l symInit).x .addSum) = _
    rw [h5, eval_lin0]; omega

/-! ## Rows -/

/-- The pointer to lane `i`. -/
def rowPtr : Nat → X
  | 0 => .inp
  | i + 1 => .t i

/-- The bytes that the code for `len` leftovers (8: all) takes from a row. -/
def rowE (len : Nat) (r : X) : VE :=
  if len = 8 then .load 8 (.lin r 0 0)
  else
    let b := len / 4 * 4
    let e := if 4 ≤ len then VE.loadLane 4 0 (.lin r 0 0) .zero else .zero
    let e := if 2 ≤ len % 4 then VE.loadLane 2 (b / 2) (.lin r 0 b) e else e
    if len % 2 = 1 then VE.loadLane 1 (len - 1) (.lin r 0 (len - 1 : Nat)) e else e

/-- Reads are within the next `len` bytes of the first `n` lanes. -/
def rowReads (n len : Nat) (rd : List (XE × Nat)) : Bool :=
  rd.all fun r => match r.1 with
    | .lin p 0 o => decide (0 ≤ o ∧ o + r.2 ≤ len) && (List.range n).any fun i => decide (p = rowPtr i)
    | _ => false

def rowInitOk (n L : Nat) (l : List Ins) : Bool :=
  let s := exec sym l symInit
  ((List.range n).all fun i => decide (s.v (8 + i) = .zero) && decide (s.x (rowPtr i) = .lin .inp i 0)) &&
  decide (s.x .out = .lin .out 0 0) && decide (s.x .mulSum = .lin .mulSum 0 0) &&
  decide (s.x .addSum = .lin .addSum 0 0) && decide (s.x .count = .lin .count 0 (-(L : Int))) &&
  decide (0 < L → s.x .flags = .lin .count 0 (-(L : Int))) && decide (s.rd = []) && decide (s.wr = [])

def rowBodyOk (n : Nat) (l : List Ins) : Bool :=
  let s := exec sym l symInit
  chunkOk n (fun i => rowE 8 (rowPtr i)) l && rowReads n 8 s.rd &&
  ((List.range n).all fun i => decide (s.x (rowPtr i) = .lin (rowPtr i) 0 8)) &&
  decide (s.x .count = .lin .count 0 (-8)) && decide (s.x .flags = .lin .count 0 (-8))

def rowOk (n L : Nat) (p : Prog) : Bool :=
  decide (p.skip = decide (0 < L)) && decide (p.cond = .ne) && rowInitOk n L p.init &&
  rowBodyOk n p.body &&
  (if L = 0 then decide (p.left = [])
   else chunkOk n (fun i => rowE L (rowPtr i)) p.left && rowReads n L (exec sym p.left symInit).rd)

/-- All 64 pieces of code. -/
theorem rows_all : ((List.range 8).all fun n => (List.range 8).all fun L =>
    (rowProg (n + 1) L).any fun p =>
      rowOk (n + 1) L p && redOk (n + 1) p.red && alOk [] p) = true := by decide +kernel

theorem rows_ok {n L : Nat} (hn : 0 < n) (hn8 : n ≤ 8) (hL : L < 8) :
    ∃ p, rowProg n L = some p ∧ rowOk n L p = true ∧ redOk n p.red = true ∧ alOk [] p = true := by
  have h := rows_all
  simp only [List.all_eq_true, List.mem_range] at h
  have := h (n - 1) (by omega) L hL
  rw [show n - 1 + 1 = n by omega] at this
  cases hp : rowProg n L with
  | none => rw [hp] at this; simp at this
  | some p =>
    rw [hp] at this
    simp only [Option.any_some, Bool.and_eq_true] at this
    exact ⟨p, rfl, this.1.1, this.1.2, this.2⟩

theorem rowE_eval (f : FloatOps) (mem : Int → BitVec 8) (s : St VReg Int) (r : X) {len j : Nat} (h0 : 0 < len)
    (hl : len ≤ 8) (hj : j < 8) : (rowE len r).eval f mem s j = if j < len then mem (s.x r + j) else 0 := by
  have hz : ∀ n : Int, (XE.lin r 0 n).eval s.x = s.x r + n := eval_lin0 s.x r
  have : len = 1 ∨ len = 2 ∨ len = 3 ∨ len = 4 ∨ len = 5 ∨ len = 6 ∨ len = 7 ∨ len = 8 := by omega
  rcases this with h | h | h | h | h | h | h | h <;> subst h <;>
    simp only [rowE, VE.eval, machine, hz, Nat.reduceMod, Nat.reduceDiv, Nat.reduceLeDiff, Nat.reduceEqDiff,
      Nat.reduceMul, Nat.reduceSub, reduceIte, Int.add_zero] <;>
    (have : j = 0 ∨ j = 1 ∨ j = 2 ∨ j = 3 ∨ j = 4 ∨ j = 5 ∨ j = 6 ∨ j = 7 := by omega) <;>
    rcases this with h | h | h | h | h | h | h | h <;> subst h <;> simp [Int.add_assoc]

theorem rowReads_ok {n len : Nat} {l : List Ins} (h : rowReads n len (exec sym l symInit).rd = true)
    {ok : Int → Bool} {s : St VReg Int}
    (hok : ∀ i, i < n → ∀ q : Nat, q < len → ok (s.x (rowPtr i) + q) = true) :
    ∀ r, r ∈ (exec sym l symInit).rd → ∀ b : Nat, b < r.2 → ok (r.1.eval s.x + b) = true := by
  unfold rowReads at h
  rw [List.all_eq_true] at h
  intro r hr b hb
  have := h r hr
  obtain ⟨a, w⟩ := r
  match a with
  | .lin p 0 o =>
    simp only [Bool.and_eq_true, decide_eq_true_eq, List.any_eq_true, List.mem_range] at this
    obtain ⟨⟨h0, h1⟩, i, hi, rfl⟩ := this
    have := hok i hi (o.toNat + b) (by dsimp only at hb; omega)
    rw [eval_lin0, show s.x (rowPtr i) + o + (b : Int) = s.x (rowPtr i) + (o.toNat + b : Nat) by omega]
    exact this
  | .lin p (k + 1) o => exact absurd this (by simp)
  | .sum a b => exact absurd this (by simp)

/-- The code for rows is packing code. -/
theorem row_code {n k : Nat} {p : Prog} (hp : rowOk n (k % 8) p = true) (f : FloatOps) (mem : Int → BitVec 8)
    (hred : Reduces f mem n p.red)
    (ok : Int → Bool) (s0 : St VReg Int)
    (hok : ∀ i, i < n → ∀ q : Nat, q < k → ok (s0.x .inp + i * s0.x .stride + q) = true) :
    PackCode f mem p ok n k (fun i q => mem (s0.x .inp + i * s0.x .stride + q)) s0
      (fun pos s => ∀ i, i < n → s.x (rowPtr i) = s0.x .inp + i * s0.x .stride + pos) := by
  unfold rowOk rowInitOk rowBodyOk at hp
  simp only [Bool.and_eq_true, decide_eq_true_eq, List.all_eq_true, List.mem_range] at hp
  obtain ⟨⟨⟨⟨hskip, hcond⟩, ⟨⟨⟨⟨⟨⟨⟨hiv, hio⟩, him⟩, hia⟩, hic⟩, hif⟩, hir⟩, hiw⟩⟩,
    ⟨⟨⟨⟨hbc, hbr⟩, hbp⟩, hbcnt⟩, hbf⟩⟩, hleft⟩ := hp
  have ex : ∀ (l : List Ins) (s : St VReg Int) r, (exec (machine f mem) l s).x r = ((exec sym l symInit).x r).eval s.x := by
    intro l s r; rw [exec_sym]; rfl
  refine ⟨hskip, hcond, hred, ?_, ?_, ?_, ?_, ?_, ?_, ?_, ?_, ?_, ?_⟩
  · intro h0; rw [if_pos h0, decide_eq_true_eq] at hleft; exact hleft
  · intro i hi
    rw [ex, (hiv i hi).2, eval_lin]; simp
  · intro i hi
    rw [exec_sym]
    show VE.eval f mem s0 ((exec sym p.init symInit).v (8 + i)) = _
    rw [(hiv i hi).1]; rfl
  · rintro r (rfl | rfl | rfl)
    · rw [ex, hio, eval_lin0]; omega
    · rw [ex, him, eval_lin0]; omega
    · rw [ex, hia, eval_lin0]; omega
  · rw [ex, hic, eval_lin0]; omega
  · intro h0; rw [ex, hif h0, eval_lin0]; omega
  · rw [exec_sym]
    show (exec sym p.init symInit).rd.map _ ++ s0.rd = s0.rd
    rw [hir]; rfl
  · rw [exec_sym]
    show (exec sym p.init symInit).wr.map _ ++ s0.wr = s0.wr
    rw [hiw]; rfl
  · intro pos s hP hk
    refine ⟨chunk_of_ok hbc f mem ok _ s ?_ ?_, ?_, ?_, ?_⟩
    · intro i hi j hj
      rw [rowE_eval f mem s _ (by omega) (by omega) hj, hP i hi, if_pos hj, if_pos hj]
      congr 1; push_cast; omega
    · apply rowReads_ok hbr
      intro i hi q hq
      have := hok i hi (pos + q) (by omega)
      rw [hP i hi, show s0.x .inp + i * s0.x .stride + (pos : Int) + q = s0.x .inp + i * s0.x .stride + (pos + q : Nat) by
        push_cast; omega]
      exact this
    · intro i hi
      rw [ex, hbp i hi, eval_lin0, hP i hi]; push_cast; omega
    · rw [ex, hbcnt, eval_lin0]; omega
    · rw [ex, hbf, eval_lin0]; omega
  · intro pos s hP h0 hk
    rw [if_neg (by omega), Bool.and_eq_true] at hleft
    refine chunk_of_ok hleft.1 f mem ok _ s ?_ ?_
    · intro i hi j hj
      rw [rowE_eval f mem s _ h0 (by omega) hj, hP i hi]
      split
      · congr 1; push_cast; omega
      · rfl
    · apply rowReads_ok hleft.2
      intro i hi q hq
      have := hok i hi (pos + q) (by omega)
      rw [hP i hi, show s0.x .inp + i * s0.x .stride + (pos : Int) + q = s0.x .inp + i * s0.x .stride + (pos + q : Nat) by
        push_cast; omega]
      exact this

end Gemmlowp.MetaAsm
