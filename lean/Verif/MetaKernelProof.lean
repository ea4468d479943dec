import Verif.MetaPackProof
import Verif.MetaAlign
import Verif.MetaKernels
/-!
# The multiplication kernels multiply
-/
namespace Gemmlowp.MetaAsm

open Vec (VReg ofH ofS h_ofH s_ofS)

/-! ## The code, symbolically -/

/-- The general registers that a kernel leaves alone up to the end. -/
def kernFixed : List X := [.result, .stride, .mulOffset, .rounding, .shift, .scale]

def kernInitOk (m n : Nat) (l : List Ins) : Bool :=
  let s := exec sym l symInit
  ((List.range (m * n)).all fun a => decide (s.v a = .zero)) &&
  (([X.lhs, .rhs, .count] ++ kernFixed).all fun r => decide (s.x r = .lin r 0 0)) &&
  decide (s.rd = []) && decide (s.wr = [])

/-- Reads are within the next bytes of the operands: `l` of the left and `r` of the right one. -/
def kernReads (l r : Nat) (rd : List (XE × Nat)) : Bool :=
  rd.all fun a => match a.1 with
    | .lin .lhs 0 o => decide (0 ≤ o ∧ o + a.2 ≤ l)
    | .lin .rhs 0 o => decide (0 ≤ o ∧ o + a.2 ≤ r)
    | _ => false

def kernBodyOk (m n : Nat) (l : List Ins) : Bool :=
  let s := exec sym l symInit
  ((List.range m).all fun i => (List.range n).all fun j =>
    let a := VE.load 8 (.lin .lhs 0 (8 * i : Nat))
    let b := VE.load 8 (.lin .rhs 0 (8 * j : Nat))
    decide (s.v (i * n + j) = .op2 .uadalp (.reg (i * n + j)) (.op2 .umull a b)) ||
    decide (s.v (i * n + j) = .op2 .uadalp (.reg (i * n + j)) (.op2 .umull b a))) &&
  decide (s.x .lhs = .lin .lhs 0 (8 * m : Nat)) && decide (s.x .rhs = .lin .rhs 0 (8 * n : Nat)) &&
  decide (s.x .count = .lin .count 0 (-8)) && decide (s.x .flags = .lin .count 0 (-8)) &&
  (kernFixed.all fun r => decide (s.x r = .lin r 0 0)) &&
  kernReads (8 * m) (8 * n) s.rd && decide (s.wr = [])

/-- The sums of a group of `r` accumulators from `a` on. -/
def quadA (a r : Nat) : VE :=
  let u i := VE.reg (a + place r i)
  .op2 .addp (.op2 .addp (u 0) (u 1)) (.op2 .addp (u 2) (u 3))

/-- Columns `4 * g` to `4 * g + 3` of row `i`, with the sums of the lanes added. -/
def totalE (n i g : Nat) : VE :=
  .op2 .add (.op2 .add (quadA (i * n + 4 * g) (min 4 (n - 4 * g))) (.dupLane i (.load 16 (.lin .lhs 0 0))))
    (.load 16 (.lin .rhs 0 (16 * g : Nat)))

def quantE (n i g : Nat) : VE :=
  .op2 .sshl (.op2 .add (.op2 .mul (totalE n i g) (.dupW (.lin .mulOffset 0 0))) (.dupW (.lin .rounding 0 0)))
    (.dupW (.lin .shift 0 0))

def q8E (n i : Nat) : VE :=
  if n ≤ 4 then .op1 .sqxtun (.op1 .sqxtn (quantE n i 0))
  else .op1 .sqxtun (.op2 .sqxtn2 (.op1 .sqxtn (quantE n i 0)) (quantE n i 1))

def f32E (n i g : Nat) : VE := .op2 .fmul (.op1 .scvtf (totalE n i g)) (.dupW (.lin .scale 0 0))

/-- The bytes stored. -/
def bytesS (l : List (Write VE XE)) : List (XE × VE × Nat) :=
  l.flatMap fun w => (List.range w.size).map fun b => (w.addr.addImm b, w.v, w.size * w.lane + b)

def pairs (m n : Nat) : List (Nat × Nat) := (List.range m).flatMap fun i => (List.range n).map fun j => (i, j)

def sameMembers {α : Type} [DecidableEq α] (a b : List α) : Bool :=
  (a.all fun x => decide (x ∈ b)) && (b.all fun x => decide (x ∈ a))

def q8TailOk (m n : Nat) (l : List Ins) : Bool :=
  let s := exec sym l symInit
  kernReads 16 (16 * groups n) s.rd &&
  sameMembers (bytesS s.wr) ((pairs m n).map fun x => (.lin .result x.1 x.2, q8E n x.1, x.2))

def wordTailOk (e : Nat → Nat → Nat → VE) (m n : Nat) (l : List Ins) : Bool :=
  let s := exec sym l symInit
  kernReads 16 (16 * groups n) s.rd &&
  sameMembers s.wr ((pairs m n).map fun x => ⟨.lin .result x.1 (4 * x.2 : Nat), 4, x.2 % 4, e n x.1 (x.2 / 4)⟩)

def kernOk (m n : Nat) (p : Prog) : Bool :=
  decide (p.skip = false) && decide (p.cond = .gt) && kernInitOk m n p.init && kernBodyOk m n p.body

/-- The sizes for which there are kernels. -/
def kernSizes : List (Nat × Nat) :=
  [(1, 1), (1, 2), (1, 3), (1, 4), (1, 5), (1, 6), (1, 7), (1, 8), (2, 1), (2, 2), (2, 3), (2, 4), (3, 1), (3, 2), (3, 3)]

theorem q8_all : (kernSizes.all fun x => (q8Prog x.1 x.2).any fun p =>
    kernOk x.1 x.2 p && q8TailOk x.1 x.2 p.tail && alOk [] p) = true := by decide +kernel

theorem i32_all : (kernSizes.all fun x => (i32Prog x.1 x.2).any fun p =>
    kernOk x.1 x.2 p && wordTailOk totalE x.1 x.2 p.tail && alOk [] p) = true := by decide +kernel

theorem f32_all : (kernSizes.all fun x => (f32Prog x.1 x.2).any fun p =>
    kernOk x.1 x.2 p && wordTailOk f32E x.1 x.2 p.tail && alOk [] p) = true := by decide +kernel

/-! ## The loop -/

/-- The sum of the four 32-bit lanes. -/
def sum4 (v : VReg) : BitVec 32 := v.s 0 + v.s 1 + (v.s 2 + v.s 3)

theorem sumTo_chunk (g : Nat → Nat) (pos : Nat) : sumTo g (pos + 8) = sumTo g pos + (g pos + g (pos + 1) + g (pos + 2) +
    g (pos + 3) + g (pos + 4) + g (pos + 5) + g (pos + 6) + g (pos + 7)) := by
  simp only [sumTo]; omega

theorem umull_toNat (a b : BitVec 8) : (a.zeroExtend 16 * b.zeroExtend 16).zeroExtend 32 =
    BitVec.ofNat 32 (a.toNat * b.toNat) := by
  apply BitVec.eq_of_toNat_eq
  have h1 := a.isLt
  have h2 := b.isLt
  have : a.toNat * b.toNat ≤ 255 * 255 := Nat.mul_le_mul (by omega) (by omega)
  rw [BitVec.toNat_setWidth, BitVec.toNat_mul, BitVec.toNat_setWidth, BitVec.toNat_setWidth, BitVec.toNat_ofNat,
    Nat.mod_eq_of_lt (show a.toNat < 2 ^ 16 by omega), Nat.mod_eq_of_lt (show b.toNat < 2 ^ 16 by omega),
    Nat.mod_eq_of_lt (show a.toNat * b.toNat < 2 ^ 16 by omega)]

theorem sum4_uadalp (f : FloatOps) (acc a b : VReg) {x y : Nat → Nat} (ha : ∀ j, j < 8 → (a j).toNat = x j)
    (hb : ∀ j, j < 8 → (b j).toNat = y j) :
    sum4 (op2V f .uadalp acc (op2V f .umull a b)) = sum4 acc + BitVec.ofNat 32 (x 0 * y 0 + x 1 * y 1 + x 2 * y 2 +
      x 3 * y 3 + x 4 * y 4 + x 5 * y 5 + x 6 * y 6 + x 7 * y 7) := by
  simp only [op2V, sum4, s_ofS, h_ofH, umull_toNat, Nat.mul_zero, Nat.mul_one, Nat.reduceMul, Nat.reduceAdd]
  rw [ha 0 (by omega), ha 1 (by omega), ha 2 (by omega), ha 3 (by omega), ha 4 (by omega), ha 5 (by omega),
    ha 6 (by omega), ha 7 (by omega), hb 0 (by omega), hb 1 (by omega), hb 2 (by omega), hb 3 (by omega),
    hb 4 (by omega), hb 5 (by omega), hb 6 (by omega), hb 7 (by omega)]
  simp only [BitVec.ofNat_add]
  ac_rfl

theorem packedByte_at {n k i j c : Nat} (src : Nat → Nat → BitVec 8) (hi : i < n) (hj : j < 8) :
    packedByte n k src (8 * n * c + 8 * i + j) = if 8 * c + j < k then src i (8 * c + j) else 0 := by
  unfold packedByte
  dsimp only
  have e : 8 * n * c + 8 * i + j = (8 * i + j) + 8 * n * c := by omega
  have hlt : 8 * i + j < 8 * n := by omega
  rw [e, Nat.add_mul_div_left _ _ (by omega), Nat.add_mul_mod_self_left, Nat.div_eq_of_lt hlt, Nat.mod_eq_of_lt hlt,
    show (8 * i + j + 8 * n * c) % 8 = j by rw [Nat.mul_assoc, Nat.add_mul_mod_self_left]; omega,
    show (8 * i + j) / 8 = i by omega, show (0 + c) * 8 + j = 8 * c + j by omega]

/-- Element `q` of a lane, 0 beyond the end. -/
def padded (k : Nat) (f : Nat → BitVec 8) (q : Nat) : Nat := if q < k then (f q).toNat else 0

theorem sumTo_congr {f g : Nat → Nat} : ∀ n, (∀ q, q < n → f q = g q) → sumTo f n = sumTo g n
  | 0, _ => rfl
  | n + 1, h => by rw [sumTo, sumTo, sumTo_congr n (fun q hq => h q (by omega)), h n (by omega)]

theorem sumTo_pad {g : Nat → Nat} {k : Nat} : ∀ d, (∀ q, k ≤ q → g q = 0) → sumTo g (k + d) = sumTo g k
  | 0, _ => rfl
  | d + 1, h => by rw [← Nat.add_assoc, sumTo, sumTo_pad d h, h (k + d) (by omega)]; rfl

theorem sumTo_padded (k : Nat) (f g : Nat → BitVec 8) :
    sumTo (fun q => padded k f q * padded k g q) (up8 k) = sumTo (fun q => (f q).toNat * (g q).toNat) k := by
  have e : up8 k = k + (up8 k - k) := by unfold up8; omega
  rw [e, sumTo_pad _ (by intro q hq; unfold padded; rw [if_neg (by omega)]; simp)]
  apply sumTo_congr
  intro q hq
  unfold padded
  rw [if_pos hq, if_pos hq]

/-- Lanes are in memory in packed form. -/
def HasData (mem : Int → BitVec 8) (dst : Int) (n k : Nat) (src : Nat → Nat → BitVec 8) : Prop :=
  ∀ t : Nat, t < n * up8 k → mem (dst + t) = packedByte n k src t

/-- The state after `c` passes. -/
structure Mult (mem : Int → BitVec 8) (ok : Int → Bool) (m n k : Nat) (l r : Nat → Nat → BitVec 8) (s0 : St VReg Int)
    (c : Nat) (s : St VReg Int) : Prop where
  acc : ∀ i, i < m → ∀ j, j < n → sum4 (s.v (i * n + j)) =
    BitVec.ofNat 32 (sumTo (fun q => padded k (l i) q * padded k (r j) q) (8 * c))
  lhs : s.x .lhs = s0.x .lhs + (8 * m * c : Nat)
  rhs : s.x .rhs = s0.x .rhs + (8 * n * c : Nat)
  count : s.x .count = s0.x .count - (8 * c : Nat)
  fixed : ∀ x, x ∈ kernFixed → s.x x = s0.x x
  rd : readsIn ok s.rd = true
  wr : s.wr = s0.wr

theorem kernReads_ok {a b : Nat} {l : List Ins} (h : kernReads a b (exec sym l symInit).rd = true)
    {ok : Int → Bool} {s : St VReg Int} (hl : ∀ q : Nat, q < a → ok (s.x .lhs + q) = true)
    (hr : ∀ q : Nat, q < b → ok (s.x .rhs + q) = true) (f : FloatOps) (mem : Int → BitVec 8)
    (h0 : readsIn ok s.rd = true) : readsIn ok (exec (machine f mem) l s).rd = true := by
  rw [exec_sym]
  show readsIn ok ((exec sym l symInit).rd.map _ ++ s.rd) = true
  rw [readsIn_append, Bool.and_eq_true]
  refine ⟨?_, h0⟩
  unfold readsIn
  unfold kernReads at h
  simp only [List.all_eq_true, List.mem_map, List.mem_range] at h ⊢
  rintro _ ⟨⟨e, w⟩, hr', rfl⟩ q hq
  have := h (e, w) hr'
  dsimp only at this hq ⊢
  split at this
  · rename_i o
    rw [decide_eq_true_eq] at this
    have h1 := hl (o.toNat + q) (by omega)
    rw [show (XE.lin .lhs 0 o).eval s.x + (q : Int) = s.x .lhs + (o.toNat + q : Nat) by simp only [XE.eval]; omega]
    exact h1
  · rename_i o
    rw [decide_eq_true_eq] at this
    have h1 := hr (o.toNat + q) (by omega)
    rw [show (XE.lin .rhs 0 o).eval s.x + (q : Int) = s.x .rhs + (o.toNat + q : Nat) by simp only [XE.eval]; omega]
    exact h1
  · exact absurd this (by simp)

theorem mult_step {m n k : Nat} {p : Prog} (hp : kernBodyOk m n p.body = true) (f : FloatOps) {mem : Int → BitVec 8}
    {ok : Int → Bool} {l r : Nat → Nat → BitVec 8} {s0 s : St VReg Int} {c : Nat}
    (hl : HasData mem (s0.x .lhs) m k l) (hr : HasData mem (s0.x .rhs) n k r)
    (okl : ∀ q : Nat, q < m * up8 k → ok (s0.x .lhs + q) = true)
    (okr : ∀ q : Nat, q < n * up8 k → ok (s0.x .rhs + q) = true)
    (hc : 8 * c < k) (h : Mult mem ok m n k l r s0 c s) :
    Mult mem ok m n k l r s0 (c + 1) (exec (machine f mem) p.body s) ∧
    (exec (machine f mem) p.body s).x .flags = (exec (machine f mem) p.body s).x .count := by
  unfold kernBodyOk at hp
  simp only [Bool.and_eq_true, Bool.or_eq_true, decide_eq_true_eq, List.all_eq_true, List.mem_range] at hp
  obtain ⟨⟨⟨⟨⟨⟨⟨ha, hpl⟩, hpr⟩, hpc⟩, hpf⟩, hfix⟩, hrd⟩, hwr⟩ := hp
  have ex : ∀ r, (exec (machine f mem) p.body s).x r = ((exec sym p.body symInit).x r).eval s.x := by
    intro r; rw [exec_sym]; rfl
  have lin0 : ∀ r n, (XE.lin r 0 n).eval s.x = s.x r + n := by intro r n; simp only [XE.eval]; omega
  have hup : 8 * (c + 1) ≤ up8 k := by unfold up8; omega
  have hm : ∀ d : Nat, 8 * d * c + 8 * d ≤ d * up8 k := by
    intro d
    have := Nat.mul_le_mul_left d hup
    rw [show d * (8 * (c + 1)) = 8 * d * c + 8 * d by
      rw [Nat.mul_add, Nat.mul_add, ← Nat.mul_assoc, Nat.mul_comm d 8]] at this
    exact this
  -- the bytes loaded
  have byte : ∀ (b : Int) (d : Nat) (src : Nat → Nat → BitVec 8) (i : Nat), HasData mem b d k src → i < d →
      ∀ j : Nat, j < 8 → (mem (b + (8 * d * c : Nat) + (8 * i : Nat) + j)).toNat = padded k (src i) (8 * c + j) := by
    intro b d src i hd hi j hj
    have h1 := hm d
    have h2 := hd (8 * d * c + 8 * i + j) (by omega)
    rw [packedByte_at src hi hj] at h2
    rw [show b + ((8 * d * c : Nat) : Int) + (8 * i : Nat) + (j : Int) = b + (8 * d * c + 8 * i + j : Nat) by
      generalize 8 * d * c = Q; omega, h2]
    unfold padded
    split <;> rfl
  constructor
  · refine ⟨?_, ?_, ?_, ?_, ?_, ?_, ?_⟩
    · intro i hi j hj
      rw [exec_sym]
      show sum4 (VE.eval f mem s ((exec sym p.body symInit).v (i * n + j))) = _
      have hA : ∀ t, t < 8 → ((VE.load 8 (.lin .lhs 0 (8 * i : Nat))).eval f mem s t).toNat =
          padded k (l i) (8 * c + t) := by
        intro t ht
        simp only [VE.eval, machine, lin0]
        rw [if_pos ht, h.lhs]
        exact byte _ m l i hl hi t ht
      have hB : ∀ t, t < 8 → ((VE.load 8 (.lin .rhs 0 (8 * j : Nat))).eval f mem s t).toNat =
          padded k (r j) (8 * c + t) := by
        intro t ht
        simp only [VE.eval, machine, lin0]
        rw [if_pos ht, h.rhs]
        exact byte _ n r j hr hj t ht
      have e8 : 8 * (c + 1) = 8 * c + 8 := by omega
      rw [e8, sumTo_chunk, BitVec.ofNat_add, ← h.acc i hi j hj]
      rcases ha i hi j hj with e | e
      · rw [e]
        have := sum4_uadalp f (s.v (i * n + j)) _ _ hA hB
        exact this
      · rw [e]
        have := sum4_uadalp f (s.v (i * n + j)) _ _ hB hA
        refine this.trans ?_
        simp only [Nat.mul_comm, Nat.add_zero]
    · rw [ex, hpl, lin0, h.lhs, Nat.mul_add, Nat.mul_one]; generalize 8 * m * c = Q; omega
    · rw [ex, hpr, lin0, h.rhs, Nat.mul_add, Nat.mul_one]; generalize 8 * n * c = Q; omega
    · rw [ex, hpc, lin0, h.count]; omega
    · intro x hx
      rw [ex, hfix x hx, lin0, h.fixed x hx]; omega
    · apply kernReads_ok hrd _ _ f mem h.rd
      · intro q hq
        have h1 := hm m
        rw [h.lhs, Int.add_assoc, ← Int.natCast_add]
        exact okl _ (by omega)
      · intro q hq
        have h1 := hm n
        rw [h.rhs, Int.add_assoc, ← Int.natCast_add]
        exact okr _ (by omega)
    · rw [exec_sym]
      show (exec sym p.body symInit).wr.map _ ++ s.wr = s0.wr
      rw [hwr, h.wr]; rfl
  · rw [ex, ex, hpc, hpf]

theorem mult_loop {m n k : Nat} {p : Prog} (hp : kernBodyOk m n p.body = true) (f : FloatOps) {mem : Int → BitVec 8}
    {ok : Int → Bool} {l r : Nat → Nat → BitVec 8} {s0 : St VReg Int} (hcond : p.cond = .gt)
    (hl : HasData mem (s0.x .lhs) m k l) (hr : HasData mem (s0.x .rhs) n k r)
    (okl : ∀ q : Nat, q < m * up8 k → ok (s0.x .lhs + q) = true)
    (okr : ∀ q : Nat, q < n * up8 k → ok (s0.x .rhs + q) = true) (hk : s0.x .count = k) :
    ∀ (fuel c : Nat) (s : St VReg Int), 8 * c < k → (k - 8 * c) < fuel → Mult mem ok m n k l r s0 c s →
    ∃ s', loop (machine f mem) p.body p.cond fuel s = some s' ∧ Mult mem ok m n k l r s0 (up8 k / 8) s' := by
  intro fuel
  induction fuel with
  | zero => intro c s _ h; omega
  | succ fuel ih =>
    intro c s hc hf hs
    obtain ⟨hs', hfl⟩ := mult_step hp f hl hr okl okr hc hs
    rw [loop, hcond, hfl, hs'.count, hk]
    by_cases h0 : 8 * (c + 1) < k
    · rw [if_pos (by simp only [Cond.holds, decide_eq_true_eq]; omega), ← hcond]
      exact ih (c + 1) _ h0 (by omega) hs'
    · rw [if_neg (by simp only [Cond.holds, decide_eq_true_eq]; omega)]
      refine ⟨_, rfl, ?_⟩
      rw [show up8 k / 8 = c + 1 by unfold up8; omega]
      exact hs'

theorem kern_run {m n k : Nat} {p : Prog} (hp : kernOk m n p = true) (f : FloatOps) {mem : Int → BitVec 8}
    {ok : Int → Bool} {l r : Nat → Nat → BitVec 8} {s0 : St VReg Int} (hk : 0 < k)
    (hl : HasData mem (s0.x .lhs) m k l) (hr : HasData mem (s0.x .rhs) n k r)
    (okl : ∀ q : Nat, q < m * up8 k → ok (s0.x .lhs + q) = true)
    (okr : ∀ q : Nat, q < n * up8 k → ok (s0.x .rhs + q) = true) (hc : s0.x .count = k)
    (hrd : readsIn ok s0.rd = true) :
    ∃ s, p.run (machine f mem) s0 = some (exec (machine f mem) p.tail s) ∧
      Mult mem ok m n k l r s0 (up8 k / 8) s := by
  unfold kernOk at hp
  simp only [Bool.and_eq_true, decide_eq_true_eq] at hp
  obtain ⟨⟨⟨hskip, hcond⟩, hinit⟩, hbody⟩ := hp
  unfold kernInitOk at hinit
  simp only [Bool.and_eq_true, decide_eq_true_eq, List.all_eq_true, List.mem_range] at hinit
  obtain ⟨⟨⟨hv, hx⟩, hir⟩, hiw⟩ := hinit
  have ex : ∀ r, (exec (machine f mem) p.init s0).x r = ((exec sym p.init symInit).x r).eval s0.x := by
    intro r; rw [exec_sym]; rfl
  have lin0 : ∀ r, (XE.lin r 0 0).eval s0.x = s0.x r := by intro r; simp only [XE.eval]; omega
  have h0 : Mult mem ok m n k l r s0 0 (exec (machine f mem) p.init s0) := by
    refine ⟨?_, ?_, ?_, ?_, ?_, ?_, ?_⟩
    · intro i hi j hj
      rw [exec_sym]
      show sum4 (VE.eval f mem s0 ((exec sym p.init symInit).v (i * n + j))) = _
      rw [hv]
      · show sum4 (fun _ => 0#8) = BitVec.ofNat 32 0
        unfold sum4 VReg.s VReg.h
        decide
      · have : (i + 1) * n ≤ m * n := Nat.mul_le_mul_right _ hi
        rw [Nat.add_mul] at this; omega
    · rw [ex, hx .lhs (by decide), lin0]; simp
    · rw [ex, hx .rhs (by decide), lin0]; simp
    · rw [ex, hx .count (by decide), lin0]; simp
    · intro x hx'
      rw [ex, hx x (List.mem_append_right _ hx'), lin0]
    · rw [exec_sym]
      show readsIn ok ((exec sym p.init symInit).rd.map _ ++ s0.rd) = true
      rw [hir]; exact hrd
    · rw [exec_sym]
      show (exec sym p.init symInit).wr.map _ ++ s0.wr = s0.wr
      rw [hiw]; rfl
  obtain ⟨s', e, hs'⟩ := mult_loop hbody f hcond hl hr okl okr hc
    (((exec (machine f mem) p.init s0).x .count).toNat + 1) 0 _ (by omega)
    (by rw [h0.count, hc]; omega) h0
  refine ⟨s', ?_, hs'⟩
  unfold Prog.run
  dsimp only
  rw [hskip, e]
  rfl

/-! ## The end -/

theorem load16_s (mem : Int → BitVec 8) (f : FloatOps) (a : Int) {i : Nat} (hi : i < 4) :
    VReg.s ((machine f mem).load 16 a) i = word mem (a + 4 * i) := by
  unfold VReg.s VReg.h word machine
  dsimp only
  rw [if_pos (by omega), if_pos (by omega), if_pos (by omega), if_pos (by omega)]
  have e : ∀ t : Nat, a + ((4 * i + t : Nat) : Int) = a + 4 * (i : Int) + t := by intro t; push_cast; omega
  rw [show 2 * (2 * i + 1) + 1 = 4 * i + 3 by omega, show 2 * (2 * i + 1) = 4 * i + 2 by omega,
    show 2 * (2 * i) + 1 = 4 * i + 1 by omega, show 2 * (2 * i) = 4 * i + 0 by omega, e, e, e, e]
  simp

/-- An entry before it is converted to the type of the result. -/
def total (mem : Int → BitVec 8) (s : St VReg Int) (n i j : Nat) : BitVec 32 :=
  sum4 (s.v (i * n + j)) + word mem (s.x .lhs + 4 * i) + word mem (s.x .rhs + 4 * j)

theorem totalE_s (f : FloatOps) (mem : Int → BitVec 8) (s : St VReg Int) {n i j : Nat} (hi : i < 4) (hj : j < n) :
    ((totalE n i (j / 4)).eval f mem s).s (j % 4) = total mem s n i j := by
  obtain ⟨g, hg⟩ : ∃ g, g = j / 4 := ⟨_, rfl⟩
  obtain ⟨t, ht⟩ : ∃ t, t = j % 4 := ⟨_, rfl⟩
  have hq : ((quadA (i * n + 4 * g) (min 4 (n - 4 * g))).eval f mem s).s t = sum4 (s.v (i * n + j)) := by
    have hp : place (min 4 (n - 4 * g)) t = t := by unfold place; rw [if_pos (by omega)]
    have ei : i * n + j = i * n + 4 * g + place (min 4 (n - 4 * g)) t := by omega
    rw [ei]
    clear ei hp
    simp only [quadA, VE.eval, machine, op2V, s_ofS]
    have : t = 0 ∨ t = 1 ∨ t = 2 ∨ t = 3 := by omega
    rcases this with h | h | h | h <;> subst h <;> rfl
  have hL : VReg.s ((machine f mem).dupLane i ((machine f mem).load 16 (XE.eval s.x (.lin .lhs 0 0)))) t =
      word mem (s.x .lhs + 4 * i) := by
    show VReg.s (ofS fun _ => VReg.s ((machine f mem).load 16 _) i) t = _
    rw [s_ofS, load16_s mem f _ hi]
    congr 2; simp only [XE.eval]; omega
  have hR : VReg.s ((machine f mem).load 16 (XE.eval s.x (.lin .rhs 0 (16 * g : Nat)))) t =
      word mem (s.x .rhs + 4 * j) := by
    rw [load16_s mem f _ (by omega)]
    congr 1; simp only [XE.eval]; omega
  rw [← hg, ← ht]
  simp only [totalE, VE.eval] at hq ⊢
  show VReg.s (op2V f .add (op2V f .add _ _) _) t = _
  simp only [op2V, s_ofS]
  rw [hq, hL, hR]
  rfl

/-- The conversion to a quantized byte. -/
def quantize (mul rounding shift : Int) (x : BitVec 32) : BitVec 8 :=
  satU8 (sat16 (sshl (x * BitVec.ofInt 32 mul + BitVec.ofInt 32 rounding) (BitVec.ofInt 32 shift)))

theorem q8E_byte (f : FloatOps) (mem : Int → BitVec 8) (s : St VReg Int) {n i j : Nat} (hi : i < 4) (hj : j < n)
    (hn : n ≤ 8) : (q8E n i).eval f mem s j =
      quantize (s.x .mulOffset) (s.x .rounding) (s.x .shift) (total mem s n i j) := by
  have lin0 : ∀ r, (XE.lin r 0 0).eval s.x = s.x r := by intro r; simp only [XE.eval]; omega
  have hq : ∀ j, j < n → ((quantE n i (j / 4)).eval f mem s).s (j % 4) =
      sshl (total mem s n i j * BitVec.ofInt 32 (s.x .mulOffset) + BitVec.ofInt 32 (s.x .rounding))
        (BitVec.ofInt 32 (s.x .shift)) := by
    intro j hj
    rw [← totalE_s f mem s hi hj]
    simp only [quantE, VE.eval, machine, op2V, s_ofS, lin0]
  unfold q8E quantize
  rw [← hq j hj]
  by_cases h4 : n ≤ 4
  · rw [if_pos h4]
    simp only [VE.eval, machine, op1V, h_ofH]
    rw [if_pos (by omega), if_pos (by omega), show j / 4 = 0 by omega, show j % 4 = j by omega]
  · rw [if_neg h4]
    simp only [VE.eval, machine, op1V, op2V, h_ofH]
    rw [if_pos (by omega)]
    by_cases h : j < 4
    · rw [if_pos h, if_pos h, show j / 4 = 0 by omega, show j % 4 = j by omega]
    · rw [if_neg h, show j / 4 = 1 by omega, show j % 4 = j - 4 by omega]

theorem bytesOf_eval (f : FloatOps) (mem : Int → BitVec 8) (s : St VReg Int) (l : List (Write VE XE)) :
    bytesOf (l.map (evalWr f mem s)) = (bytesS l).map fun x => (x.1.eval s.x, x.2.1.eval f mem s x.2.2) := by
  unfold bytesOf bytesS
  rw [List.flatMap_map, List.map_flatMap]
  congr 1
  funext w
  rw [List.map_map]
  apply List.map_congr_left
  intro b _
  simp only [Function.comp, evalWr, XE.eval_addImm]

theorem mem_of_sameMembers {α : Type} [DecidableEq α] {a b : List α} (h : sameMembers a b = true) (x : α) :
    x ∈ a ↔ x ∈ b := by
  unfold sameMembers at h
  simp only [Bool.and_eq_true, List.all_eq_true, decide_eq_true_eq] at h
  exact ⟨h.1 x, h.2 x⟩

theorem mem_pairs {m n : Nat} (x : Nat × Nat) : x ∈ pairs m n ↔ x.1 < m ∧ x.2 < n := by
  unfold pairs
  simp only [List.mem_flatMap, List.mem_map, List.mem_range]
  constructor
  · rintro ⟨i, hi, j, hj, rfl⟩; exact ⟨hi, hj⟩
  · rintro ⟨h1, h2⟩; exact ⟨x.1, h1, x.2, h2, rfl⟩

/-- What the end of a quantizing kernel stores. -/
theorem q8_tail {m n : Nat} {l : List Ins} (h : q8TailOk m n l = true) (hm : m ≤ 4) (hn : n ≤ 8) (f : FloatOps)
    (mem : Int → BitVec 8) (s : St VReg Int) (hw : s.wr = []) (x : Int × BitVec 8) :
    x ∈ bytesOf (exec (machine f mem) l s).wr ↔ ∃ i j, i < m ∧ j < n ∧
      x = (s.x .result + i * s.x .stride + j,
        quantize (s.x .mulOffset) (s.x .rounding) (s.x .shift) (total mem s n i j)) := by
  unfold q8TailOk at h
  rw [Bool.and_eq_true] at h
  rw [exec_sym]
  show x ∈ bytesOf ((exec sym l symInit).wr.map (evalWr f mem s) ++ s.wr) ↔ _
  rw [hw, List.append_nil, bytesOf_eval, List.mem_map]
  simp only [mem_of_sameMembers h.2, List.mem_map, mem_pairs]
  constructor
  · rintro ⟨_, ⟨⟨i, j⟩, ⟨hi, hj⟩, rfl⟩, rfl⟩
    refine ⟨i, j, hi, hj, ?_⟩
    dsimp only at hi hj ⊢
    rw [q8E_byte f mem s (by omega) hj hn]; rfl
  · rintro ⟨i, j, hi, hj, rfl⟩
    refine ⟨_, ⟨(i, j), ⟨hi, hj⟩, rfl⟩, ?_⟩
    dsimp only
    rw [q8E_byte f mem s (by omega) hj hn]; rfl

/-- What the end of a kernel with 32-bit results stores. -/
theorem word_tail {m n : Nat} {l : List Ins} {e : Nat → Nat → Nat → VE} (h : wordTailOk e m n l = true)
    (f : FloatOps) (mem : Int → BitVec 8) (s : St VReg Int) (hw : s.wr = []) {g : BitVec 32 → BitVec 32}
    (he : ∀ i j, i < m → j < n → ((e n i (j / 4)).eval f mem s).s (j % 4) = g (total mem s n i j)) :
    ∃ w, wordsOf (exec (machine f mem) l s).wr = some w ∧ ∀ x, x ∈ w ↔ ∃ i j, i < m ∧ j < n ∧
      x = (s.x .result + i * s.x .stride + (4 * j : Nat), g (total mem s n i j)) := by
  unfold wordTailOk at h
  rw [Bool.and_eq_true] at h
  rw [exec_sym]
  show ∃ w, wordsOf ((exec sym l symInit).wr.map (evalWr f mem s) ++ s.wr) = some w ∧ _
  rw [hw, List.append_nil]
  have hmem := mem_of_sameMembers h.2
  simp only [List.mem_map, mem_pairs] at hmem
  unfold wordsOf
  rw [if_pos]
  · refine ⟨_, rfl, ?_⟩
    intro x
    simp only [List.mem_map, hmem]
    constructor
    · rintro ⟨_, ⟨_, ⟨⟨i, j⟩, ⟨hi, hj⟩, rfl⟩, rfl⟩, rfl⟩
      refine ⟨i, j, hi, hj, ?_⟩
      dsimp only [evalWr] at hi hj ⊢
      rw [he i j hi hj]; rfl
    · rintro ⟨i, j, hi, hj, rfl⟩
      refine ⟨_, ⟨_, ⟨(i, j), ⟨hi, hj⟩, rfl⟩, rfl⟩, ?_⟩
      dsimp only [evalWr]
      rw [he i j hi hj]; rfl
  · simp only [List.all_eq_true, List.mem_map, hmem]
    rintro _ ⟨_, ⟨_, _, rfl⟩, rfl⟩
    rfl

theorem f32E_s (f : FloatOps) (mem : Int → BitVec 8) (s : St VReg Int) {n i j : Nat} (hi : i < 4) (hj : j < n) :
    ((f32E n i (j / 4)).eval f mem s).s (j % 4) =
      f.mul (f.ofInt (total mem s n i j)) (BitVec.ofInt 32 (s.x .scale)) := by
  rw [← totalE_s f mem s hi hj]
  have lin0 : (XE.lin .scale 0 0).eval s.x = s.x .scale := by simp only [XE.eval]; omega
  simp only [f32E, VE.eval, machine, op2V, op1V, s_ofS, lin0]

end Gemmlowp.MetaAsm
